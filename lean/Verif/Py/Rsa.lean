import Verif.Py.Crypto
import Mathlib.Data.Nat.Prime.Defs
/-
Interface to the RSA part of PyCryptodome, zlib, and the rest of the outside world.  These are
parameters of the model; laws that theorems need are hypotheses.
-/

namespace Verif

/-- A PyCryptodome `RsaKey`: modulus, public exponent and, for private keys, `(d, p, q)`. -/
structure RsaKey where
  n : Int
  e : Int
  priv : Option (Int × Int × Int)
deriving DecidableEq, Repr

/-- `Cryptodome.PublicKey.RSA`, `Signature.PKCS1_v1_5`, `Signature.PKCS1_PSS`,
`Cipher.PKCS1_v1_5`, `Cipher.PKCS1_OAEP`.  `rnd` stands for the randomness drawn by the call. -/
structure RsaLib where
  /-- `RSA.construct((n, e[, d[, p[, q]]]))`; inconsistent components raise `ValueError`. -/
  construct : List Int → PyM RsaKey
  /-- `der2rsa(der)`: the key of a DER certificate (`jwk.py:112-121`, library calls only). -/
  fromCert : Bytes → PyM RsaKey
  /-- `PKCS1_v1_5.new(key).sign(digest.new(msg))`. -/
  sign15 : HashAlg → RsaKey → (msg : Bytes) → PyM Bytes
  /-- `PKCS1_v1_5.new(key).verify(digest.new(msg), sig)`. -/
  verify15 : HashAlg → RsaKey → (msg sig : Bytes) → PyM Bool
  /-- `PKCS1_PSS.new(key).sign(digest.new(msg))`. -/
  signPss : HashAlg → RsaKey → (rnd : Nat) → (msg : Bytes) → PyM Bytes
  /-- `PKCS1_PSS.new(key).verify(digest.new(msg), sig)`. -/
  verifyPss : HashAlg → RsaKey → (msg sig : Bytes) → PyM Bool
  /-- `PKCS1_v1_5.new(key).encrypt(msg)`. -/
  enc15 : RsaKey → (rnd : Nat) → (msg : Bytes) → PyM Bytes
  /-- `PKCS1_v1_5.new(key).decrypt(ct, sentinel)`: `none` when the padding is wrong and the
  sentinel is returned. -/
  dec15 : RsaKey → (ct : Bytes) → PyM (Option Bytes)
  /-- `PKCS1_OAEP.new(key[, hash]).encrypt(msg)`. -/
  encOaep : HashAlg → RsaKey → (rnd : Nat) → (msg : Bytes) → PyM Bytes
  /-- `PKCS1_OAEP.new(key[, hash]).decrypt(ct)`. -/
  decOaep : HashAlg → RsaKey → (ct : Bytes) → PyM Bytes

/-- The two keys have the same public half. -/
def RsaKey.SamePublic (k k' : RsaKey) : Prop := k'.n = k.n ∧ k'.e = k.e

/-- The numbers of a private key fit together: two different primes, their product, and exponents that are
inverse to each other modulo each prime less one.  (`RSA.construct` and `RSA.generate` give no other.) -/
def RsaKey.Consistent (k : RsaKey) : Prop :=
  ∃ e d p q : Nat, k.e = e ∧ k.n = (p * q : Nat) ∧ k.priv = some ((d : Int), (p : Int), (q : Int)) ∧
    p.Prime ∧ q.Prime ∧ p ≠ q ∧ e * d % (p - 1) = 1 % (p - 1) ∧ e * d % (q - 1) = 1 % (q - 1)

/-- `k` is a private key whose public half is that of `k'`. -/
def RsaKey.Owns (k k' : RsaKey) : Prop := k.Consistent ∧ k.SamePublic k'

theorem RsaKey.Owns.isSome {k k' : RsaKey} (h : k.Owns k') : k.priv.isSome = true := by
  obtain ⟨⟨e, d, p, q, -, -, h, -⟩, -⟩ := h
  rw [h]; rfl

/-- What the round-trip theorems need: the public half accepts what the private key signed, and the
private key decrypts what was encrypted with the public half. -/
structure RsaLib.Lawful (R : RsaLib) : Prop where
  pkcs1_sig : ∀ h k k' m s, k.SamePublic k' → R.sign15 h k m = .ok s → R.verify15 h k' m s = .ok true
  pss_sig : ∀ h k k' r m s, k.SamePublic k' → R.signPss h k r m = .ok s → R.verifyPss h k' m s = .ok true
  pkcs1_enc : ∀ k k' r m c, k.Owns k' → R.enc15 k' r m = .ok c → R.dec15 k c = .ok (some m)
  oaep_enc : ∀ h k k' r m c, k.Owns k' → R.encOaep h k' r m = .ok c → R.decOaep h k c = .ok m
  construct_ne : ∀ n e k, R.construct [n, e] = .ok k → k.n = n ∧ k.e = e ∧ k.priv = none
  construct_nedpq : ∀ n e d p q k, R.construct [n, e, d, p, q] = .ok k →
    k.n = n ∧ k.e = e ∧ k.priv = some (d, p, q)
  construct_error : ∀ l e, R.construct l = .error e → e = .valueError

/-- A lawful instance (only to show satisfiability). -/
def toyRsa : RsaLib where
  construct l := match l with
    | [n, e] => .ok ⟨n, e, none⟩
    | [n, e, d, p, q] => .ok ⟨n, e, some (d, p, q)⟩
    | _ => .error .valueError
  fromCert _ := .error .valueError
  sign15 _ k m := if k.priv.isSome then .ok (1 :: m) else .error .typeError
  verify15 _ _ m s := .ok (s == 1 :: m)
  signPss _ k _ m := if k.priv.isSome then .ok (2 :: m) else .error .typeError
  verifyPss _ _ m s := .ok (s == 2 :: m)
  enc15 _ _ m := .ok (3 :: m)
  dec15 k c := if k.priv.isSome then
      .ok (match c with | 3 :: m => some m | _ => none)
    else .error .typeError
  encOaep _ _ _ m := .ok (4 :: m)
  decOaep _ k c := if k.priv.isSome then
      (match c with | 4 :: m => .ok m | _ => .error .valueError)
    else .error .typeError

theorem toyRsa_lawful : toyRsa.Lawful where
  pkcs1_sig h k k' m s hk := by
    simp only [toyRsa]; split
    · rintro h; cases h; simp
    · rintro h; cases h
  pss_sig h k k' r m s hk := by
    simp only [toyRsa]; split
    · rintro h; cases h; simp
    · rintro h; cases h
  pkcs1_enc k k' r m c hk := by simp only [toyRsa, hk.isSome, if_true]; rintro h; cases h; rfl
  oaep_enc h k k' r m c hk := by simp only [toyRsa, hk.isSome, if_true]; rintro h; cases h; rfl
  construct_ne n e k h := by cases h; simp
  construct_nedpq n e d p q k h := by cases h; simp
  construct_error l e h := by
    simp only [toyRsa] at h
    split at h <;> simp at h
    exact h.symm

/-- `zlib.compress` / `zlib.decompress` as used by `JWE_RSA` (`jwe.py`). -/
structure Zlib where
  compress : Bytes → Bytes
  decompress : Bytes → PyM Bytes

/-- Decompression inverts compression. -/
def Zlib.Lawful (Z : Zlib) : Prop := ∀ b, Z.decompress (Z.compress b) = .ok b

/-- A lawful instance (only to show satisfiability). -/
def toyZlib : Zlib := ⟨fun b => 0 :: b, fun b => match b with
  | 0 :: m => .ok m
  | _ => .error .zlibError⟩

theorem toyZlib_lawful : toyZlib.Lawful := fun _ => rfl

end Verif
