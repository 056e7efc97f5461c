import Verif.Model.Jwk
/-
More methods of the key classes of /repo/src/jwkest/jwk.py: `load_key`, `thumbprint` with an explicit
member list, `get_hash`, `add_kid`, `keyitems2keyreps`, and the comparison helpers nobody calls.
-/

namespace Verif

/-- `RSAKey.load_key(key)`, `jwk.py:540-548`: the attribute is assigned before `_split` runs. -/
def rsaLoadKey (k : Key) (key : KObj) : PyM Unit × Key :=
  match k.mat with
  | .rsa m => match rsaSplit { k with key := key } m with
    | .ok k' => (.ok (), k')
    | .error e => (.error e, { k with key := key })
  | _ => (.error .attributeError, k)

/-- `RSAKey.deserialize()` called by the user, `jwk.py:444-486`. -/
def Key.deserialize (E : Env) (k : Key) : PyM Key :=
  match k.mat with
  | .plain => .ok k
  | .rsa m => rsaDeserialize E k m
  | .ec crv x y d _ => ecDeserialize k crv x y d
  | .sym kk => (symDeserialize kk).map fun o => { k with key := o }

/-- `members.sort()` on a list of names, `jwk.py:368`. -/
def sortNames (l : List String) : List String := l.mergeSort fun a b => decide (a ≤ b)

/-- The text that `thumbprint(_, members)` hashes, `jwk.py:364-378`. -/
def Key.thumbInputOf (k : Key) (members : List String) : PyM String := do
  match ← k.serializeDflt with
  | .dict ser =>
    let l ← (sortNames members).mapM (tpElem ser)
    .ok ("{" ++ joinComma (l.filterMap id) ++ "}")
  | _ => if members.isEmpty then .ok "{}" else .error .typeError

/-- `Key.thumbprint(hash_function, members)`, `jwk.py:364-380`: the digest, and the caller's list
as it is afterwards. -/
def Key.thumbprintOf (E : Env) (k : Key) (hashFn : String) (members : List String) :
    PyM Bytes × List String :=
  (do let s ← k.thumbInputOf members
      let h ← digestHash hashFn
      .ok (E.H.hash h (utf8Encode s)),
   sortNames members)

/-- `int(binascii.hexlify(b), 16)`. -/
def hexInt (b : Bytes) : PyM Nat := if b.isEmpty then .error .valueError else .ok (bytesToNat b)

/-- `Key.get_hash(hash_function=None)`, `jwk.py:382-386`; `""` stands for a missing argument. -/
def Key.getHash (E : Env) (k : Key) (hashFn : String) : PyM Nat × Key :=
  match (do let tp ← k.thumbprint E (if hashFn.isEmpty then "SHA-256" else hashFn)
            hexInt tp) with
  | .ok h => (.ok h, { k with hash := some h })
  | .error e => (.error e, k)

/-- `Key.add_kid()`, `jwk.py:388-391`. -/
def Key.addKid (E : Env) (k : Key) : PyM Unit × Key :=
  match k.thumbprint E "SHA-256" with
  | .error e => (.error e, k)
  | .ok tp =>
    let k := { k with kid := asUnicode (b64e tp) }
    match hexInt tp with
    | .ok h => (.ok (), { k with hash := some h })
    | .error e => (.error e, k)

end Verif
