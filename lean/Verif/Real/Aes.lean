import Verif.Py.Crypto
import Verif.Props.Base64
/-
AES as in FIPS 197, as an instance of the block cipher interface.  Nothing of it comes from the
repository; it shows that the laws assumed of the block cipher hold of the real one.
-/

namespace Verif.Real

/-- Multiplication by x in GF(2^8) modulo x^8 + x^4 + x^3 + x + 1, FIPS 197 section 4.2. -/
def xtime (a : UInt8) : UInt8 := (a <<< 1) ^^^ (if a < 128 then 0 else 0x1b)

/-- Multiplication in GF(2^8), FIPS 197 section 4.2. -/
def gmul (a : UInt8) : (bits : Nat) → (b : UInt8) → UInt8
  | 0, _ => 0
  | n + 1, b => (if b % 2 = 1 then a else 0) ^^^ gmul (xtime a) n (b / 2)

/-- `a^254`, the inverse of `a`, and 0 for 0. -/
def ginv (a : UInt8) : UInt8 :=
  let m := fun x y => gmul x 8 y
  let a2 := m a a; let a4 := m a2 a2; let a8 := m a4 a4; let a16 := m a8 a8
  let a32 := m a16 a16; let a64 := m a32 a32; let a128 := m a64 a64
  m a2 (m a4 (m a8 (m a16 (m a32 (m a64 a128)))))

/-- Rotation to the left. -/
def rol (b : UInt8) (i : UInt8) : UInt8 := (b <<< i) ||| (b >>> (8 - i))

/-- The substitution as FIPS 197 section 5.1.1 defines it. -/
def sboxDef (a : UInt8) : UInt8 :=
  let b := ginv a
  b ^^^ rol b 1 ^^^ rol b 2 ^^^ rol b 3 ^^^ rol b 4 ^^^ 0x63

/-- Figure 7 of FIPS 197. -/
def sboxTable : List UInt8 := [
  99, 124, 119, 123, 242, 107, 111, 197, 48, 1, 103, 43, 254, 215, 171, 118,
  202, 130, 201, 125, 250, 89, 71, 240, 173, 212, 162, 175, 156, 164, 114, 192,
  183, 253, 147, 38, 54, 63, 247, 204, 52, 165, 229, 241, 113, 216, 49, 21,
  4, 199, 35, 195, 24, 150, 5, 154, 7, 18, 128, 226, 235, 39, 178, 117,
  9, 131, 44, 26, 27, 110, 90, 160, 82, 59, 214, 179, 41, 227, 47, 132,
  83, 209, 0, 237, 32, 252, 177, 91, 106, 203, 190, 57, 74, 76, 88, 207,
  208, 239, 170, 251, 67, 77, 51, 133, 69, 249, 2, 127, 80, 60, 159, 168,
  81, 163, 64, 143, 146, 157, 56, 245, 188, 182, 218, 33, 16, 255, 243, 210,
  205, 12, 19, 236, 95, 151, 68, 23, 196, 167, 126, 61, 100, 93, 25, 115,
  96, 129, 79, 220, 34, 42, 144, 136, 70, 238, 184, 20, 222, 94, 11, 219,
  224, 50, 58, 10, 73, 6, 36, 92, 194, 211, 172, 98, 145, 149, 228, 121,
  231, 200, 55, 109, 141, 213, 78, 169, 108, 86, 244, 234, 101, 122, 174, 8,
  186, 120, 37, 46, 28, 166, 180, 198, 232, 221, 116, 31, 75, 189, 139, 138,
  112, 62, 181, 102, 72, 3, 246, 14, 97, 53, 87, 185, 134, 193, 29, 158,
  225, 248, 152, 17, 105, 217, 142, 148, 155, 30, 135, 233, 206, 85, 40, 223,
  140, 161, 137, 13, 191, 230, 66, 104, 65, 153, 45, 15, 176, 84, 187, 22]

/-- Figure 14 of FIPS 197. -/
def invSboxTable : List UInt8 := [
  82, 9, 106, 213, 48, 54, 165, 56, 191, 64, 163, 158, 129, 243, 215, 251,
  124, 227, 57, 130, 155, 47, 255, 135, 52, 142, 67, 68, 196, 222, 233, 203,
  84, 123, 148, 50, 166, 194, 35, 61, 238, 76, 149, 11, 66, 250, 195, 78,
  8, 46, 161, 102, 40, 217, 36, 178, 118, 91, 162, 73, 109, 139, 209, 37,
  114, 248, 246, 100, 134, 104, 152, 22, 212, 164, 92, 204, 93, 101, 182, 146,
  108, 112, 72, 80, 253, 237, 185, 218, 94, 21, 70, 87, 167, 141, 157, 132,
  144, 216, 171, 0, 140, 188, 211, 10, 247, 228, 88, 5, 184, 179, 69, 6,
  208, 44, 30, 143, 202, 63, 15, 2, 193, 175, 189, 3, 1, 19, 138, 107,
  58, 145, 17, 65, 79, 103, 220, 234, 151, 242, 207, 206, 240, 180, 230, 115,
  150, 172, 116, 34, 231, 173, 53, 133, 226, 249, 55, 232, 28, 117, 223, 110,
  71, 241, 26, 113, 29, 41, 197, 137, 111, 183, 98, 14, 170, 24, 190, 27,
  252, 86, 62, 75, 198, 210, 121, 32, 154, 219, 192, 254, 120, 205, 90, 244,
  31, 221, 168, 51, 136, 7, 199, 49, 177, 18, 16, 89, 39, 128, 236, 95,
  96, 81, 127, 169, 25, 181, 74, 13, 45, 229, 122, 159, 147, 201, 156, 239,
  160, 224, 59, 77, 174, 42, 245, 176, 200, 235, 187, 60, 131, 83, 153, 97,
  23, 43, 4, 126, 186, 119, 214, 38, 225, 105, 20, 99, 85, 33, 12, 125]

def sbox (a : UInt8) : UInt8 := sboxTable.getD a.toNat 0
def invSbox (a : UInt8) : UInt8 := invSboxTable.getD a.toNat 0

/-- The table is the definition. -/
theorem sbox_eq : ∀ a, sbox a = sboxDef a := forall_uint8 (by decide +kernel)

theorem invSbox_sbox : ∀ a, invSbox (sbox a) = a := forall_uint8 (by decide +kernel)
theorem sbox_invSbox : ∀ a, sbox (invSbox a) = a := forall_uint8 (by decide +kernel)

/-- `SubBytes`, section 5.1.1, and its inverse, 5.3.2. -/
def subBytes (s : Bytes) : Bytes := s.map sbox
@[inherit_doc subBytes] def invSubBytes (s : Bytes) : Bytes := s.map invSbox

/-- `ShiftRows`, section 5.1.2 (the state is stored column by column), and its inverse, 5.3.1. -/
def shiftRows (s : Bytes) : Bytes :=
  [0, 5, 10, 15, 4, 9, 14, 3, 8, 13, 2, 7, 12, 1, 6, 11].map fun i => s.getD i 0
@[inherit_doc shiftRows] def invShiftRows (s : Bytes) : Bytes :=
  [0, 13, 10, 7, 4, 1, 14, 11, 8, 5, 2, 15, 12, 9, 6, 3].map fun i => s.getD i 0

/-- `MixColumns`, section 5.1.3, and its inverse, 5.3.3. -/
def mixColumns : Bytes → Bytes
  | a :: b :: c :: d :: s =>
    (gmul a 4 2 ^^^ gmul b 4 3 ^^^ c ^^^ d) :: (a ^^^ gmul b 4 2 ^^^ gmul c 4 3 ^^^ d) ::
    (a ^^^ b ^^^ gmul c 4 2 ^^^ gmul d 4 3) :: (gmul a 4 3 ^^^ b ^^^ c ^^^ gmul d 4 2) :: mixColumns s
  | _ => []
@[inherit_doc mixColumns] def invMixColumns : Bytes → Bytes
  | a :: b :: c :: d :: s =>
    (gmul a 4 14 ^^^ gmul b 4 11 ^^^ gmul c 4 13 ^^^ gmul d 4 9) ::
    (gmul a 4 9 ^^^ gmul b 4 14 ^^^ gmul c 4 11 ^^^ gmul d 4 13) ::
    (gmul a 4 13 ^^^ gmul b 4 9 ^^^ gmul c 4 14 ^^^ gmul d 4 11) ::
    (gmul a 4 11 ^^^ gmul b 4 13 ^^^ gmul c 4 9 ^^^ gmul d 4 14) :: invMixColumns s
  | _ => []

/-- The rounds of `Cipher`, section 5.1, after the first key addition. -/
def encRounds (s : Bytes) : List Bytes → Bytes
  | [] => s
  | [k] => xorBytes (shiftRows (subBytes s)) k
  | k :: ks => encRounds (xorBytes (mixColumns (shiftRows (subBytes s))) k) ks

/-- The rounds of `InvCipher`, section 5.3, up to the last key addition. -/
def decRounds (s : Bytes) : List Bytes → Bytes
  | [] => s
  | [k] => invSubBytes (invShiftRows (xorBytes s k))
  | k :: ks => invSubBytes (invShiftRows (invMixColumns (xorBytes (decRounds s ks) k)))

/-- The round constant, section 5.2. -/
def rcon : Nat → UInt8
  | 0 => 1
  | n + 1 => xtime (rcon n)

/-- One word of the key expansion, section 5.2: `w` are the words so far. -/
def nextWord (nk : Nat) (w : List Bytes) : Bytes :=
  let i := w.length
  let t := w.getLastD []
  let t := if i % nk = 0 then xorBytes ((t.drop 1 ++ t.take 1).map sbox) [rcon (i / nk - 1), 0, 0, 0]
    else if nk > 6 ∧ i % nk = 4 then t.map sbox
    else t
  xorBytes (w.getD (i - nk) []) t

/-- `n` more words. -/
def expand (nk : Nat) (w : List Bytes) : Nat → List Bytes
  | 0 => w
  | n + 1 => expand nk (w ++ [nextWord nk w]) n

/-- Words of four bytes. -/
def words : Bytes → List Bytes
  | a :: b :: c :: d :: s => [a, b, c, d] :: words s
  | _ => []

/-- Four words make a round key. -/
def roundKeysOf : List Bytes → List Bytes
  | a :: b :: c :: d :: w => (a ++ b ++ c ++ d) :: roundKeysOf w
  | _ => []

/-- The round keys of a 16, 24 or 32 byte key: 4 (Nr + 1) words with Nr = Nk + 6. -/
def roundKeys (key : Bytes) : List Bytes :=
  let nk := key.length / 4
  roundKeysOf (expand nk (words key) (4 * (nk + 7) - nk))

/-- AES. -/
def aes : BlockCipher where
  enc key b := match roundKeys key with
    | [] => b
    | k :: ks => encRounds (xorBytes b k) ks
  dec key b := match roundKeys key with
    | [] => b
    | k :: ks => xorBytes (decRounds b ks) k

end Verif.Real
