import Verif.Real.Sha
import Verif.Py.Rsa
import Verif.Proofs.KeyWrap
import Verif.Proofs.Jws
import Mathlib.Data.Nat.Prime.Basic
/-
RSA as RFC 8017 defines it and `Cryptodome` implements it: the primitives, PKCS #1 v1.5 and PSS
signatures, PKCS #1 v1.5 and OAEP encryption.  It shows that the laws assumed of the library hold of the
real algorithms.  ASN.1 (the key of a certificate) is left out: `fromCert` is a parameter.
-/

namespace Verif.Real

/-- `f n`, written so that the kernel computes `n` first. -/
def strictNat {α : Type} (n : Nat) (f : Nat → α) : α :=
  match n with
  | 0 => f 0
  | m + 1 => f (m + 1)

theorem strictNat_eq {α : Type} (n : Nat) (f : Nat → α) : strictNat n f = f n := by
  cases n <;> rfl

/-- Square and multiply. -/
def powModGo (n : Nat) : (fuel b e acc : Nat) → Nat
  | 0, _, _, acc => acc
  | f + 1, b, e, acc =>
    strictNat (b * b % n) fun b' => strictNat (e / 2) fun e' =>
    strictNat (if e % 2 = 1 then acc * b % n else acc) fun acc' => powModGo n f b' e' acc'

/-- `pow(b, e, n)`. -/
def powMod (b e n : Nat) : Nat := powModGo n (e.log2 + 1) b e 1 % n

/-- The number of bits. -/
def bitLen (n : Nat) : Nat := if n = 0 then 0 else n.log2 + 1

/-- The modulus and the exponents as natural numbers. -/
def modulus (k : RsaKey) : Nat := k.n.toNat

/-- The length of the modulus in bytes. -/
def modLen (k : RsaKey) : Nat := (bitLen (modulus k) + 7) / 8

/-- RSAEP and RSAVP1 (RFC 8017 sections 5.1.1 and 5.2.2); `RsaKey._encrypt`. -/
def rsaPub (k : RsaKey) (m : Nat) : PyM Nat :=
  if m < modulus k then .ok (powMod m k.e.toNat (modulus k)) else .error .valueError

/-- RSADP and RSASP1 (sections 5.1.2 and 5.2.1); `RsaKey._decrypt`, which checks its result.  (The library
uses the Chinese remainder theorem.) -/
def rsaPriv (k : RsaKey) (c : Nat) : PyM Nat :=
  if c < modulus k then
    match k.priv with
    | none => .error .typeError
    | some (d, _, _) =>
      let m := powMod c d.toNat (modulus k)
      if powMod m k.e.toNat (modulus k) = c then .ok m else .error .valueError
  else .error .valueError

/-- `len` random bytes. -/
def rndBytes (len rnd : Nat) : Bytes := natToBytesW len rnd

/-- `len` random bytes other than zero. -/
def nonzeroBytes : (len rnd : Nat) → Bytes
  | 0, _ => []
  | n + 1, r => UInt8.ofNat (r % 255 + 1) :: nonzeroBytes n (r / 255)

/-- MGF1, section B.2.1. -/
def mgf1 (a : HashAlg) (seed : Bytes) (len : Nat) : Bytes :=
  ((List.range (len / a.size + 1)).flatMap fun c => shaHash a (seed ++ natToBytesW 4 c)).take len

/-- The DER prefix of the digest, section 9.2 note 1. -/
def digestPrefix : HashAlg → Bytes
  | .sha1 => [0x30, 0x21, 0x30, 0x09, 0x06, 0x05, 0x2b, 0x0e, 0x03, 0x02, 0x1a, 0x05, 0x00, 0x04, 0x14]
  | .sha256 => [0x30, 0x31, 0x30, 0x0d, 0x06, 0x09, 0x60, 0x86, 0x48, 0x01, 0x65, 0x03, 0x04, 0x02, 0x01,
      0x05, 0x00, 0x04, 0x20]
  | .sha384 => [0x30, 0x41, 0x30, 0x0d, 0x06, 0x09, 0x60, 0x86, 0x48, 0x01, 0x65, 0x03, 0x04, 0x02, 0x02,
      0x05, 0x00, 0x04, 0x30]
  | .sha512 => [0x30, 0x51, 0x30, 0x0d, 0x06, 0x09, 0x60, 0x86, 0x48, 0x01, 0x65, 0x03, 0x04, 0x02, 0x03,
      0x05, 0x00, 0x04, 0x40]

/-- The same without the NULL parameters, which verification accepts too. -/
def digestPrefixBare : HashAlg → Bytes
  | .sha1 => [0x30, 0x1f, 0x30, 0x07, 0x06, 0x05, 0x2b, 0x0e, 0x03, 0x02, 0x1a, 0x04, 0x14]
  | .sha256 => [0x30, 0x2f, 0x30, 0x0b, 0x06, 0x09, 0x60, 0x86, 0x48, 0x01, 0x65, 0x03, 0x04, 0x02, 0x01,
      0x04, 0x20]
  | .sha384 => [0x30, 0x3f, 0x30, 0x0b, 0x06, 0x09, 0x60, 0x86, 0x48, 0x01, 0x65, 0x03, 0x04, 0x02, 0x02,
      0x04, 0x30]
  | .sha512 => [0x30, 0x4f, 0x30, 0x0b, 0x06, 0x09, 0x60, 0x86, 0x48, 0x01, 0x65, 0x03, 0x04, 0x02, 0x03,
      0x04, 0x40]

/-- EMSA-PKCS1-v1_5, section 9.2. -/
def emsa15 (len : Nat) (info : Bytes) : PyM Bytes :=
  if len < info.length + 11 then .error .typeError
  else .ok (0 :: 1 :: (List.replicate (len - info.length - 3) 0xff ++ 0 :: info))

/-- RSASSA-PKCS1-v1_5 signature, section 8.2.1. -/
def sign15 (a : HashAlg) (k : RsaKey) (m : Bytes) : PyM Bytes := do
  let em ← emsa15 (modLen k) (digestPrefix a ++ shaHash a m)
  let s ← rsaPriv k (bytesToNat em)
  .ok (natToBytesW (modLen k) s)

/-- Its verification, section 8.2.2; every failure is `False`. -/
def verify15 (a : HashAlg) (k : RsaKey) (m sig : Bytes) : Bool :=
  decide (sig.length = modLen k) &&
  match rsaPub k (bytesToNat sig) with
  | .error _ => false
  | .ok x =>
    let em := natToBytesW (modLen k) x
    decide (emsa15 (modLen k) (digestPrefix a ++ shaHash a m) = .ok em) ||
    decide (emsa15 (modLen k) (digestPrefixBare a ++ shaHash a m) = .ok em)

/-- Clear bits of the first byte. -/
def maskFirst (mask : UInt8) : Bytes → Bytes
  | [] => []
  | b :: l => (b &&& mask) :: l

/-- The bits of the first byte that an encoding of `emBits` bits may use. -/
def pssMask (emBits emLen : Nat) : UInt8 := UInt8.ofNat (2 ^ (8 - (8 * emLen - emBits)) - 1)

/-- EMSA-PSS encoding with a salt as long as the digest, section 9.1.1. -/
def emsaPss (a : HashAlg) (emBits rnd : Nat) (m : Bytes) : PyM Bytes :=
  let emLen := (emBits + 7) / 8
  if emLen < a.size + a.size + 2 then .error .valueError
  else
    let salt := rndBytes a.size rnd
    let h := shaHash a (List.replicate 8 0 ++ shaHash a m ++ salt)
    let db := List.replicate (emLen - a.size - a.size - 2) 0 ++ 1 :: salt
    .ok (maskFirst (pssMask emBits emLen) (xorBytes db (mgf1 a h (emLen - a.size - 1))) ++ (h ++ [0xbc]))

/-- EMSA-PSS verification, section 9.1.2, of an encoding of the right length. -/
def emsaPssOk (a : HashAlg) (emBits : Nat) (m em : Bytes) : Bool :=
  let emLen := (emBits + 7) / 8
  decide (a.size + a.size + 2 ≤ emLen) &&
  decide (em.getLast? = some 0xbc) &&
  let masked := em.take (emLen - a.size - 1)
  let h := (em.drop (emLen - a.size - 1)).take a.size
  decide (maskFirst (pssMask emBits emLen) masked = masked) &&
  let db := maskFirst (pssMask emBits emLen) (xorBytes masked (mgf1 a h (emLen - a.size - 1)))
  let z := emLen - a.size - a.size - 2
  decide (db.take (z + 1) = List.replicate z 0 ++ [1]) &&
  decide (h = shaHash a (List.replicate 8 0 ++ shaHash a m ++ db.drop (z + 1)))

/-- RSASSA-PSS signature, section 8.1.1. -/
def signPss (a : HashAlg) (k : RsaKey) (rnd : Nat) (m : Bytes) : PyM Bytes := do
  let em ← emsaPss a (bitLen (modulus k) - 1) rnd m
  let s ← rsaPriv k (bytesToNat em)
  .ok (natToBytesW (modLen k) s)

/-- Its verification, section 8.1.2. -/
def verifyPss (a : HashAlg) (k : RsaKey) (m sig : Bytes) : Bool :=
  decide (sig.length = modLen k) &&
  match rsaPub k (bytesToNat sig) with
  | .error _ => false
  | .ok x =>
    let emLen := (bitLen (modulus k) - 1 + 7) / 8
    decide (x < 256 ^ emLen) && emsaPssOk a (bitLen (modulus k) - 1) m (natToBytesW emLen x)

/-- RSAES-PKCS1-v1_5 encryption, section 7.2.1. -/
def enc15 (k : RsaKey) (rnd : Nat) (m : Bytes) : PyM Bytes :=
  if modLen k < m.length + 11 then .error .valueError
  else do
    let em := 0 :: 2 :: (nonzeroBytes (modLen k - m.length - 3) rnd ++ 0 :: m)
    let c ← rsaPub k (bytesToNat em)
    .ok (natToBytesW (modLen k) c)

/-- The number of bytes before the first zero, and what follows it. -/
def splitZero : Bytes → Option (Nat × Bytes)
  | [] => none
  | b :: l => if b = 0 then some (0, l) else (splitZero l).map fun x => (x.1 + 1, x.2)

/-- Its inverse, section 7.2.2; `none` when the padding is wrong. -/
def dec15 (k : RsaKey) (c : Bytes) : PyM (Option Bytes) :=
  if c.length ≠ modLen k then .error .valueError
  else do
    let x ← rsaPriv k (bytesToNat c)
    .ok (match natToBytesW (modLen k) x with
      | 0 :: 2 :: l =>
        match splitZero l with
        | some (i, m) => if 8 ≤ i then some m else none
        | none => none
      | _ => none)

/-- EME-OAEP encoding with an empty label, section 7.1.1 step 2. -/
def emeOaep (a : HashAlg) (len rnd : Nat) (m : Bytes) : PyM Bytes :=
  if len < m.length + 2 * a.size + 2 then .error .valueError
  else
    let db := shaHash a [] ++ (List.replicate (len - m.length - 2 * a.size - 2) 0 ++ 1 :: m)
    let seed := rndBytes a.size rnd
    let maskedDb := xorBytes db (mgf1 a seed (len - a.size - 1))
    .ok (0 :: (xorBytes seed (mgf1 a maskedDb a.size) ++ maskedDb))

/-- RSAES-OAEP encryption, section 7.1.1. -/
def encOaep (a : HashAlg) (k : RsaKey) (rnd : Nat) (m : Bytes) : PyM Bytes := do
  let em ← emeOaep a (modLen k) rnd m
  let c ← rsaPub k (bytesToNat em)
  .ok (natToBytesW (modLen k) c)

/-- What follows the first one after zeros. -/
def afterOne : Bytes → Option Bytes
  | [] => none
  | b :: l => if b = 1 then some l else if b = 0 then afterOne l else none

/-- EME-OAEP decoding, section 7.1.2 step 3. -/
def oaepDecode (a : HashAlg) (len : Nat) (em : Bytes) : PyM Bytes :=
  match em with
  | 0 :: l =>
    let maskedDb := l.drop a.size
    let seed := xorBytes (l.take a.size) (mgf1 a maskedDb a.size)
    let db := xorBytes maskedDb (mgf1 a seed (len - a.size - 1))
    if db.take a.size = shaHash a [] then
      match afterOne (db.drop a.size) with
      | some m => .ok m
      | none => .error .valueError
    else .error .valueError
  | _ => .error .valueError

/-- RSAES-OAEP decryption, section 7.1.2. -/
def decOaep (a : HashAlg) (k : RsaKey) (c : Bytes) : PyM Bytes :=
  if c.length ≠ modLen k ∨ modLen k < a.size + 2 then .error .valueError
  else do
    let x ← rsaPriv k (bytesToNat c)
    oaepDecode a (modLen k) (natToBytesW (modLen k) x)

/-- The checks of `RSA.construct` on a public key. -/
def publicOk (n e : Int) : Bool :=
  decide (1 < e) && decide (e < n) && decide (Int.gcd n e = 1) && decide (n % 2 = 1)

/-- The checks of `RSA.construct` on a private key (`p` must also have an inverse modulo `q`). -/
def privateOk (n e d p q : Int) : Bool :=
  publicOk n e && decide (1 < d) && decide (d < n) && decide (Int.gcd n d = 1) && decide (0 < p) &&
  decide (0 < q) && decide (p * q = n) && decide (p.toNat.Prime) && decide (q.toNat.Prime) &&
  decide (p ≠ q) && decide (e * d % (Int.lcm (p - 1) (q - 1) : Int) = 1)

/-- `RSA.construct`; given `d` without both primes it factors the modulus. -/
def construct : List Int → PyM RsaKey
  | [n, e] => if publicOk n e then .ok ⟨n, e, none⟩ else .error .valueError
  | [n, e, d, p, q] => if privateOk n e d p q then .ok ⟨n, e, some (d, p, q)⟩ else .error .valueError
  | n :: e :: d :: _ =>
    let p : Int := n.toNat.minFac
    if privateOk n e d p (n / p) then .ok ⟨n, e, some (d, p, n / p)⟩ else .error .valueError
  | _ => .error .valueError

/-- The real library, given how it reads certificates. -/
def rsa (fromCert : Bytes → PyM RsaKey) : RsaLib where
  construct := construct
  fromCert := fromCert
  sign15 := sign15
  verify15 a k m s := .ok (verify15 a k m s)
  signPss := signPss
  verifyPss a k m s := .ok (verifyPss a k m s)
  enc15 := enc15
  dec15 := dec15
  encOaep := encOaep
  decOaep := decOaep

end Verif.Real
