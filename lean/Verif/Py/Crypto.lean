import Verif.Py.Basic
/-
Interface to the cryptographic library (PyCryptodome).  The primitives are parameters of the
model; the laws that a theorem needs are stated as hypotheses (`...Lawful`).
-/

namespace Verif

/-- A raw block cipher: `enc key block`, `dec key block` (AES in ECB mode on one block). -/
structure BlockCipher where
  enc : Bytes → Bytes → Bytes
  dec : Bytes → Bytes → Bytes

/-- Valid AES key sizes. -/
def aesKeyOk (key : Bytes) : Bool := key.length == 16 || key.length == 24 || key.length == 32

/-- `AES.new(key, mode)`: raises `ValueError` on a key of another size. -/
def aesNew (key : Bytes) : PyM Unit := if aesKeyOk key then .ok () else .error .valueError

/-- For valid keys `enc` and `dec` are inverse permutations of 16-byte blocks. -/
structure BlockCipher.Lawful (C : BlockCipher) : Prop where
  enc_length : ∀ k b, aesKeyOk k → b.length = 16 → (C.enc k b).length = 16
  dec_length : ∀ k b, aesKeyOk k → b.length = 16 → (C.dec k b).length = 16
  dec_enc : ∀ k b, aesKeyOk k → b.length = 16 → C.dec k (C.enc k b) = b
  enc_dec : ∀ k b, aesKeyOk k → b.length = 16 → C.enc k (C.dec k b) = b

/-- A lawful instance (used only to show that the hypotheses are satisfiable): xor with the first
16 key bytes, then reversal. -/
def toyCipher : BlockCipher where
  enc k b := (List.zipWith (· ^^^ ·) b k).reverse
  dec k b := List.zipWith (· ^^^ ·) b.reverse k

theorem zipWith_xor_twice : ∀ (b k : Bytes), b.length ≤ k.length →
    List.zipWith (· ^^^ ·) (List.zipWith (· ^^^ ·) b k) k = b := by
  intro b
  induction b with
  | nil => simp
  | cons x b ih =>
    intro k h
    cases k with
    | nil => simp at h
    | cons y k =>
      simp only [List.zipWith_cons_cons, List.cons.injEq]
      refine ⟨?_, ih k (by simpa using h)⟩
      rw [UInt8.xor_assoc, UInt8.xor_self, UInt8.xor_zero]

theorem aesKeyOk_length {k : Bytes} (h : aesKeyOk k) : 16 ≤ k.length := by
  simp [aesKeyOk] at h; omega

theorem toyCipher_lawful : toyCipher.Lawful where
  enc_length k b hk hb := by have := aesKeyOk_length hk; simp [toyCipher]; omega
  dec_length k b hk hb := by have := aesKeyOk_length hk; simp [toyCipher]; omega
  dec_enc k b hk hb := by
    have := aesKeyOk_length hk
    simp [toyCipher, zipWith_xor_twice b k (by omega)]
  enc_dec k b hk hb := by
    have := aesKeyOk_length hk
    simp [toyCipher, zipWith_xor_twice b.reverse k (by simp; omega)]

/-- The hash functions of `Cryptodome.Hash` used by the library. -/
inductive HashAlg | sha1 | sha256 | sha384 | sha512
deriving DecidableEq, Repr

/-- Digest size in bytes. -/
def HashAlg.size : HashAlg → Nat
  | .sha1 => 20 | .sha256 => 32 | .sha384 => 48 | .sha512 => 64

/-- Hash and HMAC functions. -/
structure Hashes where
  hash : HashAlg → Bytes → Bytes
  hmac : HashAlg → (key data : Bytes) → Bytes

/-- Digests have the size of the algorithm. -/
structure Hashes.Lawful (H : Hashes) : Prop where
  hash_length : ∀ a m, (H.hash a m).length = a.size
  hmac_length : ∀ a k m, (H.hmac a k m).length = a.size

/-- A lawful instance (only to show satisfiability): pad or truncate the input. -/
def toyHashes : Hashes where
  hash a m := (m ++ List.replicate a.size 0).take a.size
  hmac a k m := ((k ++ m) ++ List.replicate a.size 0).take a.size

theorem toyHashes_lawful : toyHashes.Lawful where
  hash_length a m := by simp [toyHashes]
  hmac_length a k m := by simp [toyHashes]; omega

/-- Bytewise xor of two blocks. -/
def xorBytes (a b : Bytes) : Bytes := List.zipWith (· ^^^ ·) a b

/-- Split into consecutive 16-byte blocks (of data whose length is a multiple of 16). -/
def blocks16 (b : Bytes) : List Bytes :=
  if b.length < 16 then [] else b.take 16 :: blocks16 (b.drop 16)
termination_by b.length
decreasing_by simp; omega

/-- CBC chaining, encryption: `c_i = E(p_i xor c_{i-1})`. -/
def cbcEncBlocks (C : BlockCipher) (key : Bytes) : (iv : Bytes) → List Bytes → List Bytes
  | _, [] => []
  | iv, p :: ps => let c := C.enc key (xorBytes p iv); c :: cbcEncBlocks C key c ps

/-- CBC chaining, decryption: `p_i = D(c_i) xor c_{i-1}`. -/
def cbcDecBlocks (C : BlockCipher) (key : Bytes) : (iv : Bytes) → List Bytes → List Bytes
  | _, [] => []
  | iv, c :: cs => xorBytes (C.dec key c) iv :: cbcDecBlocks C key c cs

/-- `AES.new(key, AES.MODE_CBC, iv).encrypt(data)`: bad key size, bad IV size and data that is not
a multiple of the block size raise `ValueError`. -/
def cbcEncrypt (C : BlockCipher) (key iv data : Bytes) : PyM Bytes := do
  aesNew key
  if iv.length ≠ 16 then .error .valueError
  else if data.length % 16 ≠ 0 then .error .valueError
  else .ok (cbcEncBlocks C key iv (blocks16 data)).flatten

/-- `AES.new(key, AES.MODE_CBC, iv).decrypt(data)`. -/
def cbcDecrypt (C : BlockCipher) (key iv data : Bytes) : PyM Bytes := do
  aesNew key
  if iv.length ≠ 16 then .error .valueError
  else if data.length % 16 ≠ 0 then .error .valueError
  else .ok (cbcDecBlocks C key iv (blocks16 data)).flatten

/-- `struct.pack('>Q', n)` / `struct.pack('!Q', n)`. -/
def packQ (n : Nat) : PyM Bytes :=
  if n < 2 ^ 64 then .ok (natToBytesW 8 n) else .error .structError

/-- `struct.pack('!I', n)`. -/
def packI (n : Nat) : PyM Bytes :=
  if n < 2 ^ 32 then .ok (natToBytesW 4 n) else .error .structError

/-- `struct.unpack('>Q', b)[0]`. -/
def unpackQ (b : Bytes) : PyM Nat :=
  if b.length = 8 then .ok (bytesToNat b) else .error .structError

end Verif
