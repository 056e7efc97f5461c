import Verif.Props.Euclid
import Mathlib.AlgebraicGeometry.EllipticCurve.Affine.Point
import Mathlib.Data.ZMod.Basic
import Mathlib.FieldTheory.Finite.Basic
import Mathlib.Tactic.FieldSimp
import Mathlib.Tactic.LinearCombination
/-
From the integer formulas of `elliptic.py` to the group law of Mathlib.
-/

namespace Verif
open WeierstrassCurve.Affine

section
variable {n : ℕ}

theorem cast_fmod (a : ℤ) : ((a.fmod n : ℤ) : ZMod n) = (a : ZMod n) := by
  rw [Int.fmod_eq_emod_of_nonneg _ (by omega)]
  exact (ZMod.intCast_mod a n)

theorem fmod_eq_zero_iff (a : ℤ) : a.fmod n = 0 ↔ (a : ZMod n) = 0 := by
  rw [Int.fmod_eq_emod_of_nonneg _ (by omega), ZMod.intCast_zmod_eq_zero_iff_dvd]
  exact ⟨fun h => Int.dvd_of_emod_eq_zero h, fun h => Int.emod_eq_zero_of_dvd h⟩

theorem fmod_ne_zero_iff (a : ℤ) : a.fmod n ≠ 0 ↔ (a : ZMod n) ≠ 0 := (fmod_eq_zero_iff a).not

end

variable {n : ℕ} [hn : Fact n.Prime]

theorem cast_inv (a : ℤ) (h : (a : ZMod n) ≠ 0) : ((inv a n : ℤ) : ZMod n) = (a : ZMod n)⁻¹ := by
  have hp := hn.out
  have hc : Int.gcd a n = 1 := by
    rw [Ne, ZMod.intCast_zmod_eq_zero_iff_dvd] at h
    have := (Nat.Prime.coprime_iff_not_dvd hp (n := a.natAbs)).mpr
      (fun hd => h (Int.natCast_dvd.mpr hd))
    rw [Int.gcd_comm]
    exact this
  have h1 := (C48_inv a n (by exact_mod_cast hp.pos) hc).1
  have h2 : ((a * inv a n : ℤ) : ZMod n) = 1 := by
    have := (ZMod.intCast_eq_intCast_iff' (a * inv a n) 1 n).mpr h1
    simpa using this
  rw [Int.cast_mul] at h2
  exact eq_inv_of_mul_eq_one_right h2

/-- The curve `y^2 = x^3 - p x - q` over the field with `n` elements, `elliptic.py:3-4`. -/
def ecurve (n : ℕ) (p q : ℤ) : WeierstrassCurve.Affine (ZMod n) := ⟨0, 0, 0, -p, -q⟩

/-- The affine pair of integers represents the point of the group. -/
def Rep {W : WeierstrassCurve.Affine (ZMod n)} : EPt → W.Point → Prop
  | none, P => P = 0
  | some (x, y), P => ∃ h : W.Nonsingular (x : ZMod n) (y : ZMod n), P = .some _ _ h

/-- The Jacobian quintuple represents the point of the group. -/
def JRep {W : WeierstrassCurve.Affine (ZMod n)} : JPt → W.Point → Prop
  | none, P => P = 0
  | some (X, Y, Z, Zs, Zc), P => ∃ (x y : ZMod n) (h : W.Nonsingular x y), P = .some _ _ h ∧
      (Z : ZMod n) ≠ 0 ∧ (Zs : ZMod n) = Z ^ 2 ∧ (Zc : ZMod n) = Z ^ 3 ∧
      (X : ZMod n) = x * Z ^ 2 ∧ (Y : ZMod n) = y * Z ^ 3

variable {p q : ℤ}

theorem rep_some {W : WeierstrassCurve.Affine (ZMod n)} {x y : ℤ} {x' y' : ZMod n} {P : W.Point}
    {h : W.Nonsingular x' y'} (hP : P = .some _ _ h) (hx : (x : ZMod n) = x')
    (hy : (y : ZMod n) = y') : Rep (some (x, y)) P := by
  subst hx hy; exact ⟨h, hP⟩

theorem equation_ecurve {x y : ZMod n} :
    (ecurve n p q).Equation x y ↔ y ^ 2 = x ^ 3 - p * x - q := by
  rw [WeierstrassCurve.Affine.equation_iff]
  simp [ecurve]
  constructor <;> intro h <;> linear_combination h

theorem negY_ecurve (x y : ZMod n) : (ecurve n p q).negY x y = -y := by
  simp [WeierstrassCurve.Affine.negY, ecurve]

/-- Sum of two points with the same x: equal or opposite y. -/
theorem y_eq_or {x y y' : ZMod n} (h : (ecurve n p q).Equation x y)
    (h' : (ecurve n p q).Equation x y') : y = y' ∨ y = -y' := by
  rw [equation_ecurve] at h h'
  have : (y - y') * (y + y') = 0 := by linear_combination h - h'
  rcases mul_eq_zero.mp this with h | h
  · left; linear_combination h
  · right; linear_combination h

omit hn in
theorem point_congr {W : WeierstrassCurve.Affine (ZMod n)} {x y x' y' : ZMod n}
    (h : W.Nonsingular x y) (hx : x = x') (hy : y = y') :
    ∃ h', (.some x y h : W.Point) = .some x' y' h' := by
  subst hx hy; exact ⟨h, rfl⟩

theorem add_cases {x1 y1 x2 y2 : ZMod n} (h1 : (ecurve n p q).Nonsingular x1 y1)
    (h2 : (ecurve n p q).Nonsingular x2 y2) :
    (x1 ≠ x2 → ∃ h, (.some _ _ h1 + .some _ _ h2 : (ecurve n p q).Point) =
      .some (((y1 - y2) / (x1 - x2)) ^ 2 - x1 - x2)
        (-(y1 + ((y1 - y2) / (x1 - x2)) * ((((y1 - y2) / (x1 - x2)) ^ 2 - x1 - x2) - x1))) h) ∧
    (x1 = x2 → y1 + y2 ≠ 0 → y1 = y2 ∧ 2 * y1 ≠ 0 ∧
      ∃ h, (.some _ _ h1 + .some _ _ h2 : (ecurve n p q).Point) =
      .some (((3 * x1 ^ 2 - p) / (2 * y1)) ^ 2 - 2 * x1)
        (-(y1 + ((3 * x1 ^ 2 - p) / (2 * y1)) *
          ((((3 * x1 ^ 2 - p) / (2 * y1)) ^ 2 - 2 * x1) - x1))) h) ∧
    (x1 = x2 → y1 + y2 = 0 → (.some _ _ h1 + .some _ _ h2 : (ecurve n p q).Point) = 0) := by
  refine ⟨?_, ?_, ?_⟩
  · intro hx
    rw [Point.add_of_X_ne hx]
    have hs : (ecurve n p q).slope x1 x2 y1 y2 = (y1 - y2) / (x1 - x2) := slope_of_X_ne hx
    have hX : (ecurve n p q).addX x1 x2 ((ecurve n p q).slope x1 x2 y1 y2) =
        ((y1 - y2) / (x1 - x2)) ^ 2 - x1 - x2 := by
      rw [hs]; simp [WeierstrassCurve.Affine.addX, ecurve]
    have hY : (ecurve n p q).addY x1 x2 y1 ((ecurve n p q).slope x1 x2 y1 y2) =
        (-(y1 + ((y1 - y2) / (x1 - x2)) * ((((y1 - y2) / (x1 - x2)) ^ 2 - x1 - x2) - x1))) := by
      rw [WeierstrassCurve.Affine.addY, negY_ecurve, WeierstrassCurve.Affine.negAddY, hX, hs]
      ring
    exact point_congr _ hX hY
  · intro hx hy
    subst hx
    have hyy : y1 = y2 := by
      rcases y_eq_or h1.1 h2.1 with h | h
      · exact h
      · exact absurd (by rw [h]; ring) hy
    subst hyy
    have h2y : 2 * y1 ≠ 0 := by rwa [two_mul]
    have hny : y1 ≠ (ecurve n p q).negY x1 y1 := by
      rw [negY_ecurve]; intro h; exact hy (by linear_combination h)
    refine ⟨rfl, h2y, ?_⟩
    rw [Point.add_of_Y_ne hny]
    have hs : (ecurve n p q).slope x1 x1 y1 y1 = (3 * x1 ^ 2 - p) / (2 * y1) := by
      rw [slope_of_Y_ne rfl hny, negY_ecurve]
      simp only [ecurve]
      congr 1 <;> ring
    have hX : (ecurve n p q).addX x1 x1 ((ecurve n p q).slope x1 x1 y1 y1) =
        ((3 * x1 ^ 2 - p) / (2 * y1)) ^ 2 - 2 * x1 := by
      rw [hs]; simp [WeierstrassCurve.Affine.addX, ecurve]; ring
    have hY : (ecurve n p q).addY x1 x1 y1 ((ecurve n p q).slope x1 x1 y1 y1) =
        (-(y1 + ((3 * x1 ^ 2 - p) / (2 * y1)) *
          ((((3 * x1 ^ 2 - p) / (2 * y1)) ^ 2 - 2 * x1) - x1))) := by
      rw [WeierstrassCurve.Affine.addY, negY_ecurve, WeierstrassCurve.Affine.negAddY, hX, hs]
      ring
    exact point_congr _ hX hY
  · intro hx hy
    exact Point.add_of_Y_eq hx (by rw [negY_ecurve]; linear_combination hy)

/-- Affine addition. -/
theorem addA_rep {p1 p2 : EPt} {P Q : (ecurve n p q).Point} (hP : Rep p1 P) (hQ : Rep p2 Q) :
    Rep (addA p q n p1 p2) (P + Q) := by
  cases p1 with
  | none =>
    have : P = 0 := hP
    subst this
    rw [zero_add]
    exact hQ
  | some a =>
    obtain ⟨x1, y1⟩ := a
    obtain ⟨h1, rfl⟩ := hP
    cases p2 with
    | none =>
      have : Q = 0 := hQ
      subst this
      rw [add_zero]
      exact ⟨h1, rfl⟩
    | some b =>
      obtain ⟨x2, y2⟩ := b
      obtain ⟨h2, rfl⟩ := hQ
      obtain ⟨c1, c2, c3⟩ := add_cases h1 h2
      simp only [addA]
      split
      · rename_i hx
        rw [fmod_ne_zero_iff, Int.cast_sub, sub_ne_zero] at hx
        obtain ⟨hh, he⟩ := c1 hx
        have hi : ((inv (x1 - x2) n : ℤ) : ZMod n) = ((x1 : ZMod n) - x2)⁻¹ := by
          rw [cast_inv _ (by rw [Int.cast_sub]; exact sub_ne_zero.mpr hx), Int.cast_sub]
        refine rep_some he ?_ ?_ <;>
          simp only [cast_fmod, Int.cast_sub, Int.cast_mul, Int.cast_add, hi, Int.cast_natCast,
            CharP.cast_eq_zero] <;> ring
      · rename_i hx
        rw [not_not, fmod_eq_zero_iff, Int.cast_sub, sub_eq_zero] at hx
        split
        · rename_i hy
          rw [fmod_ne_zero_iff, Int.cast_add] at hy
          obtain ⟨hyy, h2y, hh, he⟩ := c2 hx hy
          have hi : ((inv (2 * y1) n : ℤ) : ZMod n) = (2 * (y1 : ZMod n))⁻¹ := by
            rw [cast_inv _ (by push_cast; exact h2y)]; push_cast; rfl
          refine rep_some he ?_ ?_ <;>
            simp only [cast_fmod, Int.cast_sub, Int.cast_mul, Int.cast_add, hi, Int.cast_natCast,
              CharP.cast_eq_zero, Int.cast_ofNat] <;> ring
        · rename_i hy
          rw [not_not, fmod_eq_zero_iff, Int.cast_add] at hy
          exact c3 hx hy

theorem negA_rep {p1 : EPt} {P : (ecurve n p q).Point} (hP : Rep p1 P) :
    Rep (negA p1 n) (-P) := by
  cases p1 with
  | none => have : P = 0 := hP; subst this; exact Point.neg_zero
  | some a =>
    obtain ⟨x1, y1⟩ := a
    obtain ⟨h1, rfl⟩ := hP
    refine rep_some (Point.neg_some h1) rfl ?_
    rw [negY_ecurve, cast_fmod]
    simp

theorem negJ_rep {p1 : JPt} {P : (ecurve n p q).Point} (hP : JRep p1 P) :
    JRep (negJ p1 n) (-P) := by
  cases p1 with
  | none => have : P = 0 := hP; subst this; exact Point.neg_zero
  | some a =>
    obtain ⟨X, Y, Z, Zs, Zc⟩ := a
    obtain ⟨x, y, h1, rfl, hz, hs, hc, hX, hY⟩ := hP
    refine ⟨_, _, _, Point.neg_some h1, hz, hs, hc, hX, ?_⟩
    rw [negY_ecurve, cast_fmod]
    simp [hY]

theorem toProjective_rep {p1 : EPt} {P : (ecurve n p q).Point} (hP : Rep p1 P) :
    JRep (toProjective p1) P := by
  cases p1 with
  | none => exact hP
  | some a =>
    obtain ⟨x1, y1⟩ := a
    obtain ⟨h1, rfl⟩ := hP
    exact ⟨_, _, h1, rfl, by simp, by simp, by simp, by simp, by simp⟩

theorem fromProjective_rep {p1 : JPt} {P : (ecurve n p q).Point} (hP : JRep p1 P) :
    Rep (fromProjective p1 n) P := by
  cases p1 with
  | none => exact hP
  | some a =>
    obtain ⟨X, Y, Z, Zs, Zc⟩ := a
    obtain ⟨x, y, h1, rfl, hz, hs, hc, hX, hY⟩ := hP
    have i1 : ((inv Zs n : ℤ) : ZMod n) = ((Z : ZMod n) ^ 2)⁻¹ := by
      rw [cast_inv _ (by rw [hs]; exact pow_ne_zero _ hz), hs]
    have i2 : ((inv Zc n : ℤ) : ZMod n) = ((Z : ZMod n) ^ 3)⁻¹ := by
      rw [cast_inv _ (by rw [hc]; exact pow_ne_zero _ hz), hc]
    refine rep_some (h := h1) rfl ?_ ?_
    · rw [cast_fmod, Int.cast_mul, i1, hX]; field_simp
    · rw [cast_fmod, Int.cast_mul, i2, hY]; field_simp

/-- Doubling of a point that is not 2-torsion. -/
theorem doublef_rep_some {X Y Z Zs Zc : ℤ} {P : (ecurve n p q).Point}
    (hP : JRep (some (X, Y, Z, Zs, Zc)) P) (hne : P + P ≠ 0) :
    JRep (doublef p q n (some (X, Y, Z, Zs, Zc))) (P + P) := by
  obtain ⟨x, y, h1, rfl, hz, hs, hc, hX, hY⟩ := hP
  obtain ⟨_, c2, c3⟩ := add_cases h1 h1
  have hy : y + y ≠ 0 := fun h => hne (c3 rfl h)
  obtain ⟨_, h2y, hh, he⟩ := c2 rfl hy
  have hy0 : y ≠ 0 := right_ne_zero_of_mul h2y
  have h20 : (2 : ZMod n) ≠ 0 := left_ne_zero_of_mul h2y
  refine ⟨_, _, hh, he, ?_, ?_, ?_, ?_, ?_⟩ <;>
    simp only [cast_fmod, Int.cast_sub, Int.cast_mul, Int.cast_ofNat, hX, hY, hc]
  · exact mul_ne_zero (mul_ne_zero h20 (mul_ne_zero hy0 (pow_ne_zero _ hz))) hz
  · ring
  · ring
  · field_simp; ring
  · field_simp; ring

/-- Jacobian addition. -/
theorem addf_rep {p1 p2 : JPt} {P Q : (ecurve n p q).Point} (hP : JRep p1 P) (hQ : JRep p2 Q) :
    JRep (addf p q n p1 p2) (P + Q) := by
  cases p1 with
  | none =>
    have : P = 0 := hP
    subst this
    rw [zero_add]
    exact hQ
  | some a =>
    cases p2 with
    | none =>
      have : Q = 0 := hQ
      subst this
      rw [add_zero]
      exact hP
    | some b =>
      obtain ⟨X1, Y1, Z1, S1, C1⟩ := a
      obtain ⟨X2, Y2, Z2, S2, C2⟩ := b
      have hP' := hP
      obtain ⟨x1, y1, h1, rfl, hz1, hs1, hc1, hX1, hY1⟩ := hP
      obtain ⟨x2, y2, h2, rfl, hz2, hs2, hc2, hX2, hY2⟩ := hQ
      obtain ⟨c1, c2, c3⟩ := add_cases h1 h2
      simp only [addf]
      split
      · rename_i hx
        have hx' : x1 ≠ x2 := by
          rintro rfl
          apply hx
          rw [fmod_eq_zero_iff, Int.cast_sub, cast_fmod, cast_fmod]
          push_cast
          rw [hX1, hX2, hs1, hs2]; ring
        obtain ⟨hh, he⟩ := c1 hx'
        have hd : x1 - x2 ≠ 0 := sub_ne_zero.mpr hx'
        refine ⟨_, _, hh, he, ?_, ?_, ?_, ?_, ?_⟩ <;>
          simp only [cast_fmod, Int.cast_sub, Int.cast_mul, Int.cast_add, Int.cast_ofNat,
            Int.cast_neg, hX1, hY1, hs1, hc1, hX2, hY2, hs2, hc2]
        · apply mul_ne_zero (mul_ne_zero hz1 hz2)
          have : x2 * (Z2 : ZMod n) ^ 2 * Z1 ^ 2 - x1 * Z1 ^ 2 * Z2 ^ 2 =
            -((x1 - x2) * ((Z1 : ZMod n) ^ 2 * Z2 ^ 2)) := by ring
          rw [this]
          exact neg_ne_zero.mpr (mul_ne_zero hd (mul_ne_zero (pow_ne_zero _ hz1)
            (pow_ne_zero _ hz2)))
        · ring
        · ring
        · field_simp; ring
        · field_simp; ring
      · rename_i hx
        have hxx : x1 = x2 := by
          rw [not_not, fmod_eq_zero_iff, Int.cast_sub, cast_fmod, cast_fmod] at hx
          push_cast at hx
          rw [hX1, hX2, hs1, hs2] at hx
          have : (x1 - x2) * ((Z1 : ZMod n) ^ 2 * Z2 ^ 2) = 0 := by linear_combination hx
          rcases mul_eq_zero.mp this with h | h
          · exact sub_eq_zero.mp h
          · exact absurd h (mul_ne_zero (pow_ne_zero _ hz1) (pow_ne_zero _ hz2))
        have hsum : (((Y1 * C2).fmod n + (Y2 * C1).fmod n : ℤ) : ZMod n) =
            (y1 + y2) * (Z1 ^ 3 * Z2 ^ 3) := by
          rw [Int.cast_add, cast_fmod, cast_fmod]
          push_cast
          rw [hY1, hY2, hc1, hc2]; ring
        have hzz : (Z1 : ZMod n) ^ 3 * Z2 ^ 3 ≠ 0 :=
          mul_ne_zero (pow_ne_zero _ hz1) (pow_ne_zero _ hz2)
        split
        · rename_i hy
          rw [fmod_ne_zero_iff, hsum] at hy
          have hy' : y1 + y2 ≠ 0 := left_ne_zero_of_mul hy
          obtain ⟨hyy, h2y, hh, he⟩ := c2 hxx hy'
          subst hxx hyy
          exact doublef_rep_some hP' (by rw [he]; exact Point.some_ne_zero _)
        · rename_i hy
          rw [not_not, fmod_eq_zero_iff, hsum] at hy
          rcases mul_eq_zero.mp hy with h | h
          · exact c3 hxx h
          · exact absurd h hzz

/-- No point of order two: then raw doubling is always right. -/
def NoTwoTorsion (n : ℕ) [Fact n.Prime] (p q : ℤ) : Prop :=
  ∀ P : (ecurve n p q).Point, P + P = 0 → P = 0

theorem doublef_rep (h2 : NoTwoTorsion n p q) {p1 : JPt} {P : (ecurve n p q).Point}
    (hP : JRep p1 P) : JRep (doublef p q n p1) (P + P) := by
  cases p1 with
  | none => have : P = 0 := hP; subst this; exact zero_add 0
  | some a =>
    obtain ⟨X, Y, Z, Zs, Zc⟩ := a
    refine doublef_rep_some hP fun h => ?_
    obtain ⟨_, _, hh, he, _⟩ := hP
    exact Point.some_ne_zero hh (he.symm.trans (h2 P h))

end Verif
