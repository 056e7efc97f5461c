import Mathlib.AlgebraicGeometry.EllipticCurve.Affine.Point
import Mathlib.Algebra.Field.ZMod
/-
ECDSA verification (FIPS 186-4 section 6.4 / SEC 1 section 4.1.4) in the group of points of a
curve over a prime field.
-/

namespace Verif.Spec

/-- `(r, s)` is a valid ECDSA signature of the hash integer `h` for base point `G` of prime order
`N` and public key `Q`. -/
def EcdsaValid {p : ℕ} [Fact p.Prime] (W : WeierstrassCurve.Affine (ZMod p)) (N : ℕ) (G Q : W.Point)
    (h r s : ℕ) : Prop :=
  0 < r ∧ r < N ∧ 0 < s ∧ s < N ∧
    ∃ (x y : ZMod p) (hns : W.Nonsingular x y),
      ((h : ZMod N) * (s : ZMod N)⁻¹).val • G + ((r : ZMod N) * (s : ZMod N)⁻¹).val • Q =
        .some x y hns ∧ x.val % N = r

end Verif.Spec
