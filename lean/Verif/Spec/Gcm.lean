import Mathlib.Algebra.Polynomial.Div
import Mathlib.Algebra.Polynomial.BigOperators
import Mathlib.Algebra.Field.ZMod
import Verif.Py.Crypto
/-
Galois/Counter Mode for 96-bit initialization vectors (NIST SP 800-38D), over an abstract block
cipher.
-/

namespace Verif.Spec
open Polynomial

/-- The field polynomial. -/
noncomputable def gcmPoly : (ZMod 2)[X] := X ^ 128 + X ^ 7 + X ^ 2 + X + 1

/-- The polynomial denoted by a 128-bit block read as a big-endian integer: the most significant
bit is the coefficient of `X^0`. -/
noncomputable def blockPoly (n : ℕ) : (ZMod 2)[X] :=
  ∑ i ∈ Finset.range 128, if n.testBit (127 - i) then X ^ i else 0

/-- GHASH: `Y_i = (Y_(i-1) + X_i) * H`. -/
noncomputable def ghashPoly (H : (ZMod 2)[X]) (blocks : List ℕ) : (ZMod 2)[X] :=
  blocks.foldl (fun y b => ((y + blockPoly b) * H) %ₘ gcmPoly) 0

/-- Zero padding to full blocks, as integers. -/
def paddedBlocks (b : Bytes) : List ℕ :=
  if b.length = 0 then []
  else bytesToNat (b.take 16 ++ List.replicate (16 - b.length) 0) :: paddedBlocks (b.drop 16)
termination_by b.length
decreasing_by simp; omega

/-- The blocks hashed for additional data `aad` and ciphertext `ct`. -/
def gcmBlocks (aad ct : Bytes) : List ℕ :=
  paddedBlocks aad ++ paddedBlocks ct ++ [8 * aad.length * 2 ^ 64 + 8 * ct.length]

/-- Byte `i` of the key stream for the 12-byte initialization vector `iv`. -/
def keyStream (E : Bytes → Bytes) (iv : Bytes) (i : ℕ) : UInt8 :=
  (E (iv ++ natToBytesW 4 (2 + i / 16))).getD (i % 16) 0

end Verif.Spec
