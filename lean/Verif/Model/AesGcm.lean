import Verif.Py.Crypto
/-
Model of /repo/src/jwkest/aes_gcm.py.

Integers are natural numbers: the callers (`jwe.py:361-364`, `386-390`) obtain them with
`bytes_to_long`.  Methods that change the object return the new object beside the result.
-/

namespace Verif

/-- The field constant `0xE1000000000000000000000000000000`, `aes_gcm.py:50`. -/
def gfR : Nat := 0xE1000000000000000000000000000000

/-- Body of the loop of `gf_2_128_mul`, `aes_gcm.py:48-50`; the state is `(res, x)`. -/
def gfStep (y : Nat) (st : Nat × Nat) (i : Nat) : Nat × Nat :=
  (st.1 ^^^ st.2 * ((y >>> i) &&& 1), (st.2 >>> 1) ^^^ ((st.2 &&& 1) * gfR))

/-- `gf_2_128_mul(x, y)`, `aes_gcm.py:44-52`, with its assertions. -/
def gfMul (x y : Nat) : PyM Nat :=
  if ¬ x < 2 ^ 128 then .error .assertionError
  else if ¬ y < 2 ^ 128 then .error .assertionError
  else
    let res := ((List.range 128).reverse.foldl (gfStep y) (0, x)).1
    if ¬ res < 2 ^ 128 then .error .assertionError else .ok res

/-- The attributes of an `AES_GCM` object that matter, `aes_gcm.py:70-76`. -/
structure Gcm where
  masterKey : Bytes
  authKey : Nat
  preTable : List (List Nat)
  prevInit : Option Nat
deriving DecidableEq

/-- `AES_GCM(master_key)`: `__init__` and `change_key`, `aes_gcm.py:70-96`. -/
def Gcm.new (C : BlockCipher) (masterKey : Nat) : PyM Gcm := do
  let mk := longToBytes masterKey 16
  aesNew mk
  let ak := bytesToNat (C.enc mk (List.replicate 16 0))
  let table ← (List.range 16).mapM fun i => (List.range 256).mapM fun j => gfMul ak (j <<< (8 * i))
  .ok { masterKey := mk, authKey := ak, preTable := table, prevInit := none }

/-- `__times_auth_key(val)`, `aes_gcm.py:98-103`; the state of the loop is `(res, val)`.  The table
always has the entries read (a missing one would be an IndexError, here it reads as 0; excluded by
`Gcm.new`). -/
def Gcm.timesAuthKey (g : Gcm) (val : Nat) : Nat :=
  ((List.range 16).foldl (fun st i =>
    (st.1 ^^^ (g.preTable.getD i []).getD (st.2 &&& 0xFF) 0, st.2 >>> 8)) (0, val)).1

/-- `data + b'\x00' * (16 - len(data) % 16)` unless the length is a multiple of 16,
`aes_gcm.py:110-117`, `149-153`, `189-193`. -/
def pad16 (b : Bytes) : Bytes :=
  if 0 = b.length % 16 then b else b ++ List.replicate (16 - b.length % 16) 0

/-- `__ghash(aad, txt)`, `aes_gcm.py:105-128`. -/
def Gcm.ghash (g : Gcm) (aad txt : Bytes) : Nat :=
  let data := pad16 aad ++ pad16 txt
  let tag := (List.range (data.length / 16)).foldl (fun tag i =>
    g.timesAuthKey (tag ^^^ bytesToNat ((data.drop (i * 16)).take 16))) 0
  g.timesAuthKey (tag ^^^ (((8 * aad.length) <<< 64) ||| (8 * txt.length)))

/-- The counter block with `prefix` and 32-bit counter value `n` (modulo 2^32). -/
def ctrBlock (pre : Bytes) (n : Nat) : Bytes := pre ++ natToBytesW 4 (n % 2 ^ 32)

/-- `AES.new(key, AES.MODE_CTR, counter=Counter.new(nbits=32, prefix, initial_value=2)).encrypt`
(or `.decrypt`, the same operation).  PyCryptodome wraps the counter around and raises
OverflowError only when it would repeat, that is beyond 2^32 blocks. -/
def ctrCrypt (C : BlockCipher) (key pre data : Bytes) : PyM Bytes := do
  aesNew key
  if data.length > 16 * 2 ^ 32 then .error .overflowError
  else .ok (xorBytes data ((List.range ((data.length + 15) / 16)).flatMap fun i =>
    C.enc key (ctrBlock pre (2 + i))))

/-- `long_to_bytes((init_value << 32) | 1, 16)` encrypted, `aes_gcm.py:161-162`, `175-177`. -/
def Gcm.tagMask (C : BlockCipher) (g : Gcm) (iv : Nat) : Nat :=
  bytesToNat (C.enc g.masterKey (longToBytes ((iv <<< 32) ||| 1) 16))

/-- The part of `encrypt`/`decrypt` that runs counter mode, `aes_gcm.py:138-157`, `180-197`. -/
def Gcm.crypt (C : BlockCipher) (g : Gcm) (iv : Nat) (data : Bytes) : PyM Bytes :=
  if data.length > 0 then do
    let r ← ctrCrypt C g.masterKey (longToBytes iv 12) (pad16 data)
    .ok (r.take data.length)
  else .ok []

/-- `encrypt(init_value, plaintext, auth_data)`, `aes_gcm.py:130-166`.  The object is updated (the
last iv is remembered) before the encryption proper. -/
def Gcm.encrypt (C : BlockCipher) (g : Gcm) (iv : Nat) (pt aad : Bytes) :
    PyM (Bytes × Nat) × Gcm :=
  if iv ≥ 2 ^ 96 then (.error .invalidInputException, g)
  else if some iv = g.prevInit then (.error .invalidInputException, g)
  else
    let g := { g with prevInit := some iv }
    (do
      let ct ← g.crypt C iv pt
      let tag := g.ghash aad ct ^^^ g.tagMask C iv
      if ¬ tag < 2 ^ 128 then .error .assertionError else .ok (ct, tag), g)

/-- `decrypt(init_value, ciphertext, auth_tag, auth_data)`, `aes_gcm.py:168-199`. -/
def Gcm.decrypt (C : BlockCipher) (g : Gcm) (iv : Nat) (ct : Bytes) (tag : Nat) (aad : Bytes) :
    PyM Bytes :=
  if iv ≥ 2 ^ 96 then .error .invalidInputException
  else if tag ≥ 2 ^ 128 then .error .invalidInputException
  else if tag ≠ g.ghash aad ct ^^^ g.tagMask C iv then .error .invalidTagException
  else g.crypt C iv ct

end Verif
