import Verif.Py.Crypto
import Verif.Model.Ecc
/-
Model of /repo/src/jwkest/extra.py.
-/

namespace Verif

/-- `pkcs5pad(x)`, `extra.py:32-43`. -/
def pkcs5pad (x : Bytes) : Bytes :=
  let n := 16 - x.length % 16
  let n := if n = 0 then 16 else n
  x ++ List.replicate n (UInt8.ofNat n)

/-- `pkcs5trim(x)`, `extra.py:46-58`.  `x[:-n]` is empty for `n = 0` (Python: `-0 == 0`). -/
def pkcs5trim (x : Bytes) : PyM Bytes :=
  match x.getLast? with
  | none => .error .structError
  | some c =>
    if c.toNat > 16 then .error .generic
    else if c.toNat = 0 then .ok []
    else .ok (x.take (x.length - c.toNat))

/-- `LENMET`, `extra.py:19-23`. -/
def lenmet : Nat → Option (Nat × HashAlg)
  | 32 => some (16, .sha256)
  | 48 => some (24, .sha384)
  | 64 => some (32, .sha512)
  | _ => none

/-- `get_keys_seclen_dgst(key, iv)`, `extra.py:61-76`. -/
def getKeysSeclenDgst (key iv : Bytes) : PyM (Bytes × Bytes × Nat × HashAlg) :=
  if iv.length ≠ 16 then .error .generic
  else match lenmet key.length with
    | none => .error .generic
    | some (seclen, dgst) => .ok (key.take seclen, key.drop seclen, seclen, dgst)

/-- The tag computation shared by `extra.py:98-102` and `extra.py:123-129`.  `aadLen` is
`len(aad)`. -/
def cbcHmacTag (H : Hashes) (ka : Bytes) (seclen : Nat) (dgst : HashAlg) (aadLen : Nat)
    (aad iv ct : Bytes) : PyM Bytes := do
  let al ← packQ (8 * aadLen)
  .ok ((H.hmac dgst ka (aad ++ iv ++ ct ++ al)).take seclen)

/-- `aes_cbc_hmac_encrypt(key, iv, aad, pt)`, `extra.py:79-103`. -/
def aesCbcHmacEncrypt (C : BlockCipher) (H : Hashes) (key iv aad pt : Bytes) :
    PyM (Bytes × Bytes) := do
  let (ka, ke, seclen, dgst) ← getKeysSeclenDgst key iv
  let ct ← cbcEncrypt C ke iv (pkcs5pad pt)
  let tag ← cbcHmacTag H ka seclen dgst aad.length aad iv ct
  .ok (ct, tag)

/-- `aes_cbc_hmac_decrypt(key, iv, aad, ct, tag)`, `extra.py:106-137`, for `bytes` aad. -/
def aesCbcHmacDecrypt (C : BlockCipher) (H : Hashes) (key iv aad ct tag : Bytes) :
    PyM Bytes := do
  let (ka, ke, seclen, dgst) ← getKeysSeclenDgst key iv
  let candidate ← cbcHmacTag H ka seclen dgst aad.length aad iv ct
  if candidate = tag then do
    let d ← cbcDecrypt C ke iv ct
    pkcs5trim d
  else .error .verificationFailure

/-- The `while` loop of `concat_sha256`, `extra.py:155-159`; `none` = out of fuel. -/
def concatLoop (H : Hashes) (secret otherInfo : Bytes) (dkBytes : Nat) :
    (fuel : Nat) → (counter : Nat) → (dkm : Bytes) → Option (PyM Bytes)
  | 0, _, _ => none
  | f + 1, counter, dkm =>
    if dkm.length < dkBytes then
      match packI (counter + 1) with
      | .error e => some (.error e)
      | .ok cb => concatLoop H secret otherInfo dkBytes f (counter + 1)
          (dkm ++ H.hash .sha256 (cb ++ secret ++ otherInfo))
    else some (.ok (dkm.take dkBytes))

/-- `int(ceil(dk_len / 8.0))`, `extra.py:153`, for `0 ≤ dk_len < 2^53` (where the float division
is exact). -/
def dkBytesOf (dkLen : Nat) : Nat := (dkLen + 7) / 8

/-- `concat_sha256(secret, dk_len, other_info)`, `extra.py:140-159`.  The fuel is shown sufficient
in `Props/Kdf`. -/
def concatSha256 (H : Hashes) (secret : Bytes) (dkLen : Nat) (otherInfo : Bytes) : PyM Bytes :=
  (concatLoop H secret otherInfo (dkBytesOf dkLen) (dkBytesOf dkLen + 1) 0 []).getD
    (.error .generic)

/-- `otherInfo` of `ecdh_derive_key`, `extra.py:179-182`. -/
def ecdhOtherInfo (apu apv alg : Bytes) (dkLen : Nat) : PyM Bytes := do
  let lu ← packI apu.length
  let lv ← packI apv.length
  let ld ← packI dkLen
  .ok (alg ++ lu ++ apu ++ lv ++ apv ++ ld)

/-- `ecdh_derive_key` after the shared secret `Z` was computed, `extra.py:177-183`. -/
def ecdhDeriveFromZ (H : Hashes) (z apu apv alg : Bytes) (dkLen : Nat) : PyM Bytes := do
  let oi ← ecdhOtherInfo apu apv alg dkLen
  concatSha256 H z dkLen oi

/-- `ecdh_derive_key(curve, key, epk, apu, apv, alg, dk_len)`, `extra.py:162-183`. -/
def ecdhDeriveKey (H : Hashes) (C : NistCurve) (key : Nat) (epk : EPt) (apu apv alg : Bytes)
    (dkLen : Nat) : PyM Bytes := do
  let z ← C.dhZ key epk
  ecdhDeriveFromZ H z apu apv alg dkLen

end Verif
