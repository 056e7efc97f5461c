import Verif.Proofs.KeyWrap
/-
The hash functions of FIPS 180-4 that `Cryptodome.Hash` provides to the library (SHA-1, SHA-256, SHA-384,
SHA-512) and HMAC (RFC 2104).  They show that the laws assumed of the hash functions hold of the real
ones; the constants and the algorithms are checked against the published examples.
-/

namespace Verif.Real

/-- `f x`, written so that the kernel computes `x` first; it makes the examples below checkable. -/
def strict {w : Nat} {α : Type} (x : BitVec w) (f : BitVec w → α) : α :=
  match x.toNat with
  | 0 => f (BitVec.ofNat w 0)
  | n + 1 => f (BitVec.ofNat w (n + 1))

theorem strict_eq {w : Nat} {α : Type} (x : BitVec w) (f : BitVec w → α) : strict x f = f x := by
  unfold strict
  split <;> rename_i h
  · rw [← h, BitVec.ofNat_toNat, BitVec.setWidth_eq]
  · rw [← Nat.succ_eq_add_one, ← h, BitVec.ofNat_toNat, BitVec.setWidth_eq]

/-- `f l`, with the cells of the list computed first. -/
def strictList {α β : Type} : List α → (List α → β) → β
  | [], f => f []
  | x :: l, f => strictList l fun l => f (x :: l)

theorem strictList_eq {α β : Type} (l : List α) (f : List α → β) : strictList l f = f l := by
  induction l generalizing f with
  | nil => rfl
  | cons x l ih => exact ih _

/-- The big-endian bytes of a word. -/
def wordBytes (n : Nat) (x : BitVec (8 * n)) : Bytes := natToBytesW n x.toNat

/-- Split into words of `n` bytes (big-endian), FIPS 180-4 section 5.2; the fuel bounds their number. -/
def msgWords (n w : Nat) : (fuel : Nat) → Bytes → List (BitVec w)
  | 0, _ => []
  | f + 1, b => strict (BitVec.ofNat w (bytesToNat (b.take n))) fun x => x :: msgWords n w f (b.drop n)

/-- The padded message, FIPS 180-4 section 5.1: a one bit, zeros, the length in bits; `blk` is the block size
and `len` the size of the length field, in bytes. -/
def shaPad (blk len : Nat) (m : Bytes) : Bytes :=
  m ++ 0x80 :: (List.replicate ((blk - (m.length + 1 + len) % blk) % blk) 0 ++ natToBytesW len (8 * m.length))

/-- The blocks of the padded message. -/
def shaBlocks (blk : Nat) : (fuel : Nat) → Bytes → List Bytes
  | 0, _ => []
  | f + 1, b => if b.length < blk then [] else b.take blk :: shaBlocks blk f (b.drop blk)

/-- Eight working variables. -/
structure Sha2State (w : Nat) where
  (a b c d e f g h : BitVec w)

/-- Componentwise sum. -/
def Sha2State.add {w : Nat} (s t : Sha2State w) : Sha2State w :=
  strict (s.a + t.a) fun a => strict (s.b + t.b) fun b => strict (s.c + t.c) fun c =>
  strict (s.d + t.d) fun d => strict (s.e + t.e) fun e => strict (s.f + t.f) fun f =>
  strict (s.g + t.g) fun g => strict (s.h + t.h) fun h => ⟨a, b, c, d, e, f, g, h⟩

/-- What distinguishes SHA-256 from SHA-512: the rotations and shifts of section 4.1 and the constants of
section 4.2. -/
structure Sha2 (w : Nat) where
  big0 : BitVec w → BitVec w
  big1 : BitVec w → BitVec w
  small0 : BitVec w → BitVec w
  small1 : BitVec w → BitVec w
  k : List (BitVec w)

/-- One round, section 6.2.2 step 3. -/
def Sha2.round {w : Nat} (P : Sha2 w) (s : Sha2State w) (k x : BitVec w) : Sha2State w :=
  strict (s.h + P.big1 s.e + ((s.e &&& s.f) ^^^ (~~~s.e &&& s.g)) + k + x) fun t1 =>
  strict (P.big0 s.a + ((s.a &&& s.b) ^^^ (s.a &&& s.c) ^^^ (s.b &&& s.c))) fun t2 =>
  strict (t1 + t2) fun a => strict (s.d + t1) fun e =>
  ⟨a, s.a, s.b, s.c, e, s.e, s.f, s.g⟩

/-- The rounds with the message schedule computed on the way: `ws` holds the next sixteen words. -/
def Sha2.rounds {w : Nat} (P : Sha2 w) : Sha2State w → List (BitVec w) → List (BitVec w) → Sha2State w
  | s, [], _ => s
  | s, k :: ks, ws =>
    strict (P.small1 (ws.getD 14 0) + ws.getD 9 0 + P.small0 (ws.getD 1 0) + ws.getD 0 0) fun nxt =>
    strictList (ws.drop 1 ++ [nxt]) fun ws' =>
    match P.round s k (ws.getD 0 0) with
    | ⟨a, b, c, d, e, f, g, h⟩ => P.rounds ⟨a, b, c, d, e, f, g, h⟩ ks ws'

/-- The compression function on one block. -/
def Sha2.block {w : Nat} (P : Sha2 w) (n : Nat) (s : Sha2State w) (b : Bytes) : Sha2State w :=
  s.add (P.rounds s P.k (msgWords n w 16 b))

/-- SHA-224/256, sections 4.1.2 and 4.2.2. -/
def sha256P : Sha2 32 where
  big0 x := x.rotateRight 2 ^^^ x.rotateRight 13 ^^^ x.rotateRight 22
  big1 x := x.rotateRight 6 ^^^ x.rotateRight 11 ^^^ x.rotateRight 25
  small0 x := x.rotateRight 7 ^^^ x.rotateRight 18 ^^^ x >>> 3
  small1 x := x.rotateRight 17 ^^^ x.rotateRight 19 ^^^ x >>> 10
  k := [
   0x428a2f98, 0x71374491, 0xb5c0fbcf, 0xe9b5dba5, 0x3956c25b, 0x59f111f1, 0x923f82a4, 0xab1c5ed5,
   0xd807aa98, 0x12835b01, 0x243185be, 0x550c7dc3, 0x72be5d74, 0x80deb1fe, 0x9bdc06a7, 0xc19bf174,
   0xe49b69c1, 0xefbe4786, 0x0fc19dc6, 0x240ca1cc, 0x2de92c6f, 0x4a7484aa, 0x5cb0a9dc, 0x76f988da,
   0x983e5152, 0xa831c66d, 0xb00327c8, 0xbf597fc7, 0xc6e00bf3, 0xd5a79147, 0x06ca6351, 0x14292967,
   0x27b70a85, 0x2e1b2138, 0x4d2c6dfc, 0x53380d13, 0x650a7354, 0x766a0abb, 0x81c2c92e, 0x92722c85,
   0xa2bfe8a1, 0xa81a664b, 0xc24b8b70, 0xc76c51a3, 0xd192e819, 0xd6990624, 0xf40e3585, 0x106aa070,
   0x19a4c116, 0x1e376c08, 0x2748774c, 0x34b0bcb5, 0x391c0cb3, 0x4ed8aa4a, 0x5b9cca4f, 0x682e6ff3,
   0x748f82ee, 0x78a5636f, 0x84c87814, 0x8cc70208, 0x90befffa, 0xa4506ceb, 0xbef9a3f7, 0xc67178f2]

/-- SHA-384/512, sections 4.1.3 and 4.2.3. -/
def sha512P : Sha2 64 where
  big0 x := x.rotateRight 28 ^^^ x.rotateRight 34 ^^^ x.rotateRight 39
  big1 x := x.rotateRight 14 ^^^ x.rotateRight 18 ^^^ x.rotateRight 41
  small0 x := x.rotateRight 1 ^^^ x.rotateRight 8 ^^^ x >>> 7
  small1 x := x.rotateRight 19 ^^^ x.rotateRight 61 ^^^ x >>> 6
  k := [
   0x428a2f98d728ae22, 0x7137449123ef65cd, 0xb5c0fbcfec4d3b2f, 0xe9b5dba58189dbbc,
   0x3956c25bf348b538, 0x59f111f1b605d019, 0x923f82a4af194f9b, 0xab1c5ed5da6d8118,
   0xd807aa98a3030242, 0x12835b0145706fbe, 0x243185be4ee4b28c, 0x550c7dc3d5ffb4e2,
   0x72be5d74f27b896f, 0x80deb1fe3b1696b1, 0x9bdc06a725c71235, 0xc19bf174cf692694,
   0xe49b69c19ef14ad2, 0xefbe4786384f25e3, 0x0fc19dc68b8cd5b5, 0x240ca1cc77ac9c65,
   0x2de92c6f592b0275, 0x4a7484aa6ea6e483, 0x5cb0a9dcbd41fbd4, 0x76f988da831153b5,
   0x983e5152ee66dfab, 0xa831c66d2db43210, 0xb00327c898fb213f, 0xbf597fc7beef0ee4,
   0xc6e00bf33da88fc2, 0xd5a79147930aa725, 0x06ca6351e003826f, 0x142929670a0e6e70,
   0x27b70a8546d22ffc, 0x2e1b21385c26c926, 0x4d2c6dfc5ac42aed, 0x53380d139d95b3df,
   0x650a73548baf63de, 0x766a0abb3c77b2a8, 0x81c2c92e47edaee6, 0x92722c851482353b,
   0xa2bfe8a14cf10364, 0xa81a664bbc423001, 0xc24b8b70d0f89791, 0xc76c51a30654be30,
   0xd192e819d6ef5218, 0xd69906245565a910, 0xf40e35855771202a, 0x106aa07032bbd1b8,
   0x19a4c116b8d2d0c8, 0x1e376c085141ab53, 0x2748774cdf8eeb99, 0x34b0bcb5e19b48a8,
   0x391c0cb3c5c95a63, 0x4ed8aa4ae3418acb, 0x5b9cca4f7763e373, 0x682e6ff3d6b2b8a3,
   0x748f82ee5defb2fc, 0x78a5636f43172f60, 0x84c87814a1f0ab72, 0x8cc702081a6439ec,
   0x90befffa23631e28, 0xa4506cebde82bde9, 0xbef9a3f7b2c67915, 0xc67178f2e372532b,
   0xca273eceea26619c, 0xd186b8c721c0c207, 0xeada7dd6cde0eb1e, 0xf57d4f7fee6ed178,
   0x06f067aa72176fba, 0x0a637dc5a2c898a6, 0x113f9804bef90dae, 0x1b710b35131c471b,
   0x28db77f523047d84, 0x32caab7b40c72493, 0x3c9ebe0a15c9bebc, 0x431d67c49c100d4c,
   0x4cc5d4becb3e42b6, 0x597f299cfc657e2a, 0x5fcb6fab3ad6faec, 0x6c44198c4a475817]

/-- The initial hash values, section 5.3. -/
def sha256Init : Sha2State 32 :=
  ⟨0x6a09e667, 0xbb67ae85, 0x3c6ef372, 0xa54ff53a,
   0x510e527f, 0x9b05688c, 0x1f83d9ab, 0x5be0cd19⟩

/-- The initial hash value of SHA-384, section 5.3.4. -/
def sha384Init : Sha2State 64 :=
  ⟨0xcbbb9d5dc1059ed8, 0x629a292a367cd507, 0x9159015a3070dd17, 0x152fecd8f70e5939,
   0x67332667ffc00b31, 0x8eb44a8768581511, 0xdb0c2e0d64f98fa7, 0x47b5481dbefa4fa4⟩

/-- The initial hash value of SHA-512, section 5.3.5. -/
def sha512Init : Sha2State 64 :=
  ⟨0x6a09e667f3bcc908, 0xbb67ae8584caa73b, 0x3c6ef372fe94f82b, 0xa54ff53a5f1d36f1,
   0x510e527fade682d1, 0x9b05688c2b3e6c1f, 0x1f83d9abfb41bd6b, 0x5be0cd19137e2179⟩

/-- The state after the whole message. -/
def sha256State (m : Bytes) : Sha2State 32 :=
  (shaBlocks 64 (m.length / 64 + 2) (shaPad 64 8 m)).foldl (sha256P.block 4) sha256Init

/-- The state after the whole message, from either initial value. -/
def sha512State (init : Sha2State 64) (m : Bytes) : Sha2State 64 :=
  (shaBlocks 128 (m.length / 128 + 2) (shaPad 128 16 m)).foldl (sha512P.block 8) init

/-- SHA-256. -/
def sha256 (m : Bytes) : Bytes :=
  let s := sha256State m
  wordBytes 4 s.a ++ wordBytes 4 s.b ++ wordBytes 4 s.c ++ wordBytes 4 s.d ++ wordBytes 4 s.e ++
    wordBytes 4 s.f ++ wordBytes 4 s.g ++ wordBytes 4 s.h

/-- SHA-384: the first six words. -/
def sha384 (m : Bytes) : Bytes :=
  let s := sha512State sha384Init m
  wordBytes 8 s.a ++ wordBytes 8 s.b ++ wordBytes 8 s.c ++ wordBytes 8 s.d ++ wordBytes 8 s.e ++
    wordBytes 8 s.f

/-- SHA-512. -/
def sha512 (m : Bytes) : Bytes :=
  let s := sha512State sha512Init m
  wordBytes 8 s.a ++ wordBytes 8 s.b ++ wordBytes 8 s.c ++ wordBytes 8 s.d ++ wordBytes 8 s.e ++
    wordBytes 8 s.f ++ wordBytes 8 s.g ++ wordBytes 8 s.h

/-- Five working variables of SHA-1. -/
structure Sha1State where
  (a b c d e : BitVec 32)

/-- The function and the constant of round `t`, sections 4.1.1 and 4.2.1. -/
def sha1F (t : Nat) (b c d : BitVec 32) : BitVec 32 × BitVec 32 :=
  if t < 20 then ((b &&& c) ^^^ (~~~b &&& d), 0x5a827999)
  else if t < 40 then (b ^^^ c ^^^ d, 0x6ed9eba1)
  else if t < 60 then ((b &&& c) ^^^ (b &&& d) ^^^ (c &&& d), 0x8f1bbcdc)
  else (b ^^^ c ^^^ d, 0xca62c1d6)

/-- Eighty rounds, section 6.1.2; `n` rounds remain. -/
def sha1Rounds : (n : Nat) → Sha1State → List (BitVec 32) → Sha1State
  | 0, s, _ => s
  | n + 1, s, ws =>
    strict ((ws.getD 13 0 ^^^ ws.getD 8 0 ^^^ ws.getD 2 0 ^^^ ws.getD 0 0).rotateLeft 1) fun nxt =>
    strictList (ws.drop 1 ++ [nxt]) fun ws' =>
    strict (s.a.rotateLeft 5 + (sha1F (79 - n) s.b s.c s.d).1 + s.e + (sha1F (79 - n) s.b s.c s.d).2 +
      ws.getD 0 0) fun t =>
    strict (s.b.rotateLeft 30) fun c =>
    match s with
    | ⟨a, _, c', d, _⟩ => sha1Rounds n ⟨t, a, c, c', d⟩ ws'

/-- The compression function of SHA-1. -/
def sha1Block (s : Sha1State) (b : Bytes) : Sha1State :=
  let t := sha1Rounds 80 s (msgWords 4 32 16 b)
  strict (s.a + t.a) fun a => strict (s.b + t.b) fun b => strict (s.c + t.c) fun c =>
  strict (s.d + t.d) fun d => strict (s.e + t.e) fun e => ⟨a, b, c, d, e⟩

/-- SHA-1. -/
def sha1 (m : Bytes) : Bytes :=
  let s := (shaBlocks 64 (m.length / 64 + 2) (shaPad 64 8 m)).foldl sha1Block
    ⟨0x67452301, 0xefcdab89, 0x98badcfe, 0x10325476, 0xc3d2e1f0⟩
  wordBytes 4 s.a ++ wordBytes 4 s.b ++ wordBytes 4 s.c ++ wordBytes 4 s.d ++ wordBytes 4 s.e

/-- The hash function of that name. -/
def shaHash : HashAlg → Bytes → Bytes
  | .sha1 => sha1 | .sha256 => sha256 | .sha384 => sha384 | .sha512 => sha512

/-- Its block size. -/
def shaBlockSize : HashAlg → Nat
  | .sha1 | .sha256 => 64
  | .sha384 | .sha512 => 128

/-- The key of HMAC made one block long (RFC 2104 section 2). -/
def hmacKey (a : HashAlg) (key : Bytes) : Bytes :=
  let k := if key.length > shaBlockSize a then shaHash a key else key
  k ++ List.replicate (shaBlockSize a - k.length) 0

/-- HMAC, RFC 2104 section 2. -/
def shaHmac (a : HashAlg) (key data : Bytes) : Bytes :=
  let k := hmacKey a key
  shaHash a (k.map (· ^^^ 0x5c) ++ shaHash a (k.map (· ^^^ 0x36) ++ data))

/-- The real hash functions. -/
def sha : Hashes := ⟨shaHash, shaHmac⟩

theorem wordBytes_length (n : Nat) (x : BitVec (8 * n)) : (wordBytes n x).length = n :=
  natToBytesW_length ..

theorem shaHash_length (a : HashAlg) (m : Bytes) : (shaHash a m).length = a.size := by
  cases a <;> simp only [shaHash, sha1, sha256, sha384, sha512, List.length_append, wordBytes_length,
    HashAlg.size]

/-- The hash functions satisfy the laws assumed of them. -/
theorem sha_lawful : sha.Lawful where
  hash_length := shaHash_length
  hmac_length a _ _ := shaHash_length a _

/-- FIPS 180-4 examples ("abc"). -/
example : sha1 [97, 98, 99] = [0xa9, 0x99, 0x3e, 0x36, 0x47, 0x06, 0x81, 0x6a, 0xba, 0x3e, 0x25, 0x71, 0x78,
    0x50, 0xc2, 0x6c, 0x9c, 0xd0, 0xd8, 0x9d] := by decide +kernel

example : sha256 [97, 98, 99] = [0xba, 0x78, 0x16, 0xbf, 0x8f, 0x01, 0xcf, 0xea, 0x41, 0x41, 0x40, 0xde, 0x5d, 0xae, 0x22, 0x23,
    0xb0, 0x03, 0x61, 0xa3, 0x96, 0x17, 0x7a, 0x9c, 0xb4, 0x10, 0xff, 0x61, 0xf2, 0x00, 0x15, 0xad] := by
  decide +kernel

/-- Two blocks. -/
example : sha256 ((List.range 100).map UInt8.ofNat) = [0xbc, 0xe0, 0xaf, 0xf1, 0x9c, 0xf5, 0xaa, 0x6a, 0x74, 0x69, 0xa3, 0x0d, 0x61, 0xd0, 0x4e, 0x43,
    0x76, 0xe4, 0xbb, 0xf6, 0x38, 0x10, 0x52, 0xee, 0x9e, 0x7f, 0x33, 0x92, 0x5c, 0x95, 0x4d, 0x52] := by
  decide +kernel

example : sha384 [97, 98, 99] = [0xcb, 0x00, 0x75, 0x3f, 0x45, 0xa3, 0x5e, 0x8b, 0xb5, 0xa0, 0x3d, 0x69, 0x9a, 0xc6, 0x50, 0x07,
    0x27, 0x2c, 0x32, 0xab, 0x0e, 0xde, 0xd1, 0x63, 0x1a, 0x8b, 0x60, 0x5a, 0x43, 0xff, 0x5b, 0xed,
    0x80, 0x86, 0x07, 0x2b, 0xa1, 0xe7, 0xcc, 0x23, 0x58, 0xba, 0xec, 0xa1, 0x34, 0xc8, 0x25, 0xa7] := by
  decide +kernel

example : sha512 [97, 98, 99] = [0xdd, 0xaf, 0x35, 0xa1, 0x93, 0x61, 0x7a, 0xba, 0xcc, 0x41, 0x73, 0x49, 0xae, 0x20, 0x41, 0x31,
    0x12, 0xe6, 0xfa, 0x4e, 0x89, 0xa9, 0x7e, 0xa2, 0x0a, 0x9e, 0xee, 0xe6, 0x4b, 0x55, 0xd3, 0x9a,
    0x21, 0x92, 0x99, 0x2a, 0x27, 0x4f, 0xc1, 0xa8, 0x36, 0xba, 0x3c, 0x23, 0xa3, 0xfe, 0xeb, 0xbd,
    0x45, 0x4d, 0x44, 0x23, 0x64, 0x3c, 0xe8, 0x0e, 0x2a, 0x9a, 0xc9, 0x4f, 0xa5, 0x4c, 0xa4, 0x9f] := by
  decide +kernel

/-- RFC 4231, test case 2: key "Jefe". -/
example : shaHmac .sha256 [74, 101, 102, 101] (utf8Encode "what do ya want for nothing?") = [0x5b, 0xdc, 0xc1, 0x46, 0xbf, 0x60, 0x75, 0x4e, 0x6a, 0x04, 0x24, 0x26, 0x08, 0x95, 0x75, 0xc7,
    0x5a, 0x00, 0x3f, 0x08, 0x9d, 0x27, 0x39, 0x83, 0x9d, 0xec, 0x58, 0xb9, 0x64, 0xec, 0x38, 0x43] := by
  decide +kernel

/-- RFC 4231, test case 6: a key longer than the block. -/
example : shaHmac .sha256 (List.replicate 131 0xaa)
    (utf8Encode "Test Using Larger Than Block-Size Key - Hash Key First") = [0x60, 0xe4, 0x31, 0x59, 0x1e, 0xe0, 0xb6, 0x7f, 0x0d, 0x8a, 0x26, 0xaa, 0xcb, 0xf5, 0xb7, 0x7f,
    0x8e, 0x0b, 0xc6, 0x21, 0x37, 0x28, 0xc5, 0x14, 0x05, 0x46, 0x04, 0x0f, 0x0e, 0xe3, 0x7f, 0x54] := by
  decide +kernel

end Verif.Real
