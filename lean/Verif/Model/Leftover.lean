import Verif.Model.Jwe
/-
Functions that nothing in the package calls, from /repo/src/jwkest/jws.py, jwe.py and jwk.py.
-/

namespace Verif

/-- `struct.pack(">L", n)` (and `">I"`): four bytes, `struct.error` from 2^32 on. -/
def packU32 (n : Nat) : PyM Bytes :=
  if n < 2 ^ 32 then
    .ok [UInt8.ofNat (n / 2 ^ 24), UInt8.ofNat (n / 2 ^ 16), UInt8.ofNat (n / 2 ^ 8), UInt8.ofNat n]
  else .error .generic

/-- `mpint(b)`, `jws.py:91-93`. -/
def mpint (b : Bytes) : PyM Bytes := do
  let l ← packU32 (b.length + 1)
  .ok (l ++ (b ++ [0]))

/-- `mp2bin(b)` of bytes, `jws.py:96-101`: `b[4]` is an integer and never equals the text `'\x00'`. -/
def mp2bin (b : Bytes) : PyM Bytes :=
  if b.length < 5 then .error .indexError else .ok (b.drop 4)

/-- `int2bigendian(n)`, `jwe.py:165-166`: iterating over `bytes` yields integers, for which `ord`
raises `TypeError`. -/
def int2bigendian (n : Nat) : PyM (List Nat) := do
  let l ← packU32 n
  l.mapM fun _ => .error .typeError

/-- `party_value(pv)`, `jwe.py:169-176`; `b64e` of text raises `TypeError`. -/
def partyValue (pv : PyVal) : PyM (List Nat) :=
  if pv.truthy then
    match pv with
    | .bytes b => do
      let s := b64e b
      let r ← int2bigendian s.length
      .ok (r ++ s.map UInt8.toNat)
    | _ => .error .typeError
  else .ok [0, 0, 0, 0]

/-- `_hash_input(cmk, enc, label, rond, length, epu=epu, epv=epv)`, `jwe.py:179-188`, with `cmk` and
`label` bytes or lists of integers. -/
def hashInput (cmk : List Nat) (enc : String) (label : List Nat) (rond length : Nat) (epu epv : PyVal) :
    PyM (List Nat) := do
  let u ← partyValue epu
  let v ← partyValue epv
  .ok ([0, 0, 0, rond] ++ cmk ++ [0, 0, 0, length] ++ enc.toList.map Char.toNat ++ u ++ v ++ label)

/-- Do two values have the same Python type? -/
def sameType : KObj → KObj → Bool
  | .rsa _, .rsa _ => true
  | .curve _, .curve _ => true
  | .val v, .val w => match v, w with
    | .none, .none | .bool _, .bool _ | .int _, .int _ | .float _, .float _ => true
    | .str _, .str _ | .bytes _, .bytes _ | .list _, .list _ | .dict _, .dict _ => true
    | _, _ => false
  | _, _ => false

/-- `key_eq(key1, key2)`, `jwk.py:187-194`: `RSA` is a module, so `isinstance(key1, RSA)` raises
`TypeError`. -/
def keyEq (a b : KObj) : PyM Bool :=
  if sameType a b then
    match a, b with
    | .val (.str s), .val (.str t) => .ok (s == t)
    | _, _ => .error .typeError
  else .ok false

/-- `t.upper() == w` for a text `w` of letters of which only `S` has a second lower-case form (`ſ`). -/
def upperIs (t w : String) : Bool :=
  (t.toList.map fun c => if c = 'ſ' then 'S' else c.toUpper) == w.toList

/-- One key of `keyitems2keyreps`, `jwk.py:730-737`; `rnd` is what `getrandbits` returns for it. -/
def itemKey (E : Env) (kty : String) (key : KObj) (rnd : Nat) : PyM Key :=
  if upperIs kty "RSA" then rsaKeyNew E [] key
  else if kty.toList.map Char.toLower = "oct".toList then
    match key with
    | .val v => symKeyNew [] v
    | o => .ok (keyCommon "oct" symArgs [] o (.sym (.str "")))
  else if upperIs kty "EC" then ecKeyNew [] key (.val .none) rnd
  else plainKeyNew [] key

/-- `keyitems2keyreps(keyitems)`, `jwk.py:727-738`. -/
def keyitems2keyreps (E : Env) (items : List (String × List (KObj × Nat))) : PyM (List Key) := do
  let ls ← items.mapM fun it => it.2.mapM fun kr => itemKey E it.1 kr.1 kr.2
  .ok ls.flatten

end Verif
