import Verif.Proofs.EcField
import Verif.Props.SignedBin
import Mathlib.Tactic.Module
import Mathlib.Tactic.Abel
import Mathlib.Tactic.NormNum.Prime
/-
Properties C49 and C51: point arithmetic and scalar multiplication
(`/repo/src/jwkest/elliptic.py:107-329`).

The specification is Mathlib's group of nonsingular points of a Weierstrass curve:
`(ecurve n p q).Point` with `+`, `-`, `0` and `•`.  `Rep pt P` says that the pair of integers `pt`
(or `None`) denotes the group element `P`; `JRep` the same for Jacobian quintuples.
-/

namespace Verif
open WeierstrassCurve.Affine

variable {n : ℕ} [hn : Fact n.Prime] {p q : ℤ}

/-! ### C49 -/

/-- `element` decides the curve equation over the field. -/
theorem C49_element (x y : ℤ) :
    element (some (x, y)) p q n = true ↔ (ecurve n p q).Equation (x : ZMod n) (y : ZMod n) := by
  simp only [element, beq_iff_eq, equation_ecurve]
  have h : (x * x * x - p * x - q).fmod n = (y * y).fmod n ↔
      ((x * x * x - p * x - q : ℤ) : ZMod n) = ((y * y : ℤ) : ZMod n) := by
    rw [Int.fmod_eq_emod_of_nonneg _ (by omega), Int.fmod_eq_emod_of_nonneg _ (by omega)]
    exact (ZMod.intCast_eq_intCast_iff' _ _ _).symm
  rw [h]
  push_cast
  constructor <;> intro h <;> linear_combination -h

/-- `curve_q` finds the parameter putting the point on the curve. -/
theorem C49_curve_q (x y : ℤ) : element (some (x, y)) p (curveQ x y p n) n = true := by
  rw [C49_element, equation_ecurve]
  unfold curveQ
  rw [cast_fmod]
  push_cast
  ring

/-- Affine addition is the group law, without exception. -/
theorem C49_add (p1 p2 : EPt) (P Q : (ecurve n p q).Point) (hP : Rep p1 P) (hQ : Rep p2 Q) :
    Rep (addA p q n p1 p2) (P + Q) := addA_rep hP hQ

/-- `neg` is the group inverse, in both coordinate systems. -/
theorem C49_neg (P : (ecurve n p q).Point) :
    (∀ p1, Rep p1 P → Rep (negA p1 n) (-P)) ∧ ∀ jp, JRep jp P → JRep (negJ jp n) (-P) :=
  ⟨fun _ h => negA_rep h, fun _ h => negJ_rep h⟩

/-- Jacobian addition is the group law, without exception. -/
theorem C49_addf (p1 p2 : JPt) (P Q : (ecurve n p q).Point) (hP : JRep p1 P) (hQ : JRep p2 Q) :
    JRep (addf p q n p1 p2) (P + Q) := addf_rep hP hQ

/-- Raw doubling is the group law except on points of order two. -/
theorem C49_doublef (p1 : JPt) (P : (ecurve n p q).Point) (hP : JRep p1 P)
    (h2 : P ≠ 0 → P + P ≠ 0) : JRep (doublef p q n p1) (P + P) := by
  cases p1 with
  | none => have : P = 0 := hP; subst this; exact zero_add 0
  | some a =>
    obtain ⟨X, Y, Z, Zs, Zc⟩ := a
    refine doublef_rep_some hP (h2 ?_)
    obtain ⟨_, _, hh, rfl, _⟩ := hP
    exact Point.some_ne_zero hh

/-- On a point of order two `doublef` returns a quintuple that denotes no point at all (its `Z` is
0), instead of `None`. -/
theorem C49_doublef_two_torsion (X Y Z Zs Zc : ℤ) (P : (ecurve n p q).Point)
    (hP : JRep (some (X, Y, Z, Zs, Zc)) P) (h2 : P + P = 0) :
    ∀ Q : (ecurve n p q).Point, ¬ JRep (doublef p q n (some (X, Y, Z, Zs, Zc))) Q := by
  intro Q hQ
  obtain ⟨x, y, h1, rfl, hz, hs, hc, hX, hY⟩ := hP
  have hy : y + y = 0 := by
    by_contra h
    obtain ⟨_, _, hh, he⟩ := (add_cases h1 h1).2.1 rfl h
    rw [h2] at he
    exact Point.some_ne_zero hh he.symm
  obtain ⟨_, _, _, _, hz', _⟩ := hQ
  apply hz'
  rw [cast_fmod]
  push_cast
  rw [hY]
  linear_combination (Z : ZMod n) ^ 4 * hy

/-- Conversions between the coordinate systems keep the point. -/
theorem C49_projective (P : (ecurve n p q).Point) :
    (∀ p1, Rep p1 P → JRep (toProjective p1) P) ∧
    ∀ jp, JRep jp P → Rep (fromProjective jp n) P :=
  ⟨fun _ h => toProjective_rep h, fun _ h => fromProjective_rep h⟩

/-- `Rep` is single-valued and every group element is represented, so the theorems above determine
the results. -/
theorem C49_rep_unique (p1 : EPt) (P Q : (ecurve n p q).Point) (hP : Rep p1 P) (hQ : Rep p1 Q) :
    P = Q := by
  cases p1 with
  | none => exact (show P = 0 from hP).trans (show Q = 0 from hQ).symm
  | some a =>
    obtain ⟨x1, y1⟩ := a
    obtain ⟨_, rfl⟩ := hP
    obtain ⟨_, rfl⟩ := hQ
    rfl

theorem C49_rep_exists (P : (ecurve n p q).Point) : ∃ p1, Rep p1 P := by
  cases P with
  | zero => exact ⟨none, rfl⟩
  | some x y h =>
    refine ⟨some ((x.val : ℤ), (y.val : ℤ)), rep_some (h := h) rfl ?_ ?_⟩ <;> simp

/-! ### C51 -/

theorem mulLoop_rep {res p1 : EPt} {R P : (ecurve n p q).Point} (c : ℕ) (hR : Rep res R)
    (hP : Rep p1 P) : Rep (mulLoop p q n res p1 c) (R + c • P) := by
  induction c using Nat.strong_induction_on generalizing res p1 R P with
  | _ c ih =>
    rw [mulLoop]
    split
    · rename_i hc
      by_cases hodd : c % 2 = 1
      · rw [if_pos hodd]
        have := ih (c / 2) (by omega) (addA_rep hR hP) (addA_rep hP hP)
        convert this using 1
        conv_lhs => rw [show c = 1 + 2 * (c / 2) by omega]
        rw [add_nsmul, mul_nsmul, one_nsmul, two_nsmul, add_assoc]
      · rw [if_neg hodd]
        have := ih (c / 2) (by omega) hR (addA_rep hP hP)
        convert this using 1
        conv_lhs => rw [show c = 2 * (c / 2) by omega]
        rw [mul_nsmul, two_nsmul]
    · rename_i hc
      have : c = 0 := by omega
      subst this
      rw [zero_nsmul, add_zero]
      exact hR

/-- `mul` is scalar multiplication, for every scalar and every point. -/
theorem C51_mul (p1 : EPt) (P : (ecurve n p q).Point) (c : ℕ) (hP : Rep p1 P) :
    Rep (mulA p q n p1 c) (c • P) := by
  have := mulLoop_rep c (show Rep none (0 : (ecurve n p q).Point) from rfl) hP
  rwa [zero_add] at this

theorem sbFold_rep (h2 : NoTwoTorsion n p q) {jp1 : JPt} {P : (ecurve n p q).Point}
    (hP : JRep jp1 P) (l : List ℤ) (hl : ∀ d ∈ l, d = -1 ∨ d = 0 ∨ d = 1) :
    ∀ (res : JPt) (v : ℤ), JRep res (v • P) →
      JRep (l.foldl (fun res s =>
        let res := doublef p q n res
        if s ≠ 0 then
          if 0 < s then addf p q n res jp1 else addf p q n res (negJ jp1 n)
        else res) res) (l.foldl (fun v d => 2 * v + d) v • P) := by
  induction l with
  | nil => intro res v h; exact h
  | cons d l ih =>
    intro res v h
    rw [List.foldl_cons, List.foldl_cons]
    have hd := doublef_rep h2 h
    have e2 : v • P + v • P = (2 * v) • P := by rw [two_mul, add_zsmul]
    rw [e2] at hd
    apply ih (fun x hx => hl x (by simp [hx]))
    rcases hl d (by simp) with rfl | rfl | rfl
    · have := addf_rep hd (negJ_rep hP)
      rw [← neg_one_zsmul, ← add_zsmul] at this
      simpa using this
    · simpa using hd
    · have := addf_rep hd hP
      rw [← one_zsmul P, smul_smul, ← add_zsmul] at this
      simpa using this

theorem mulf_rep (h2 : NoTwoTorsion n p q) {jp1 : JPt} {P : (ecurve n p q).Point}
    (hP : JRep jp1 P) (c : ℕ) : JRep (mulf p q n jp1 c) (c • P) := by
  have := sbFold_rep h2 hP (signedBin c) (C50_digits c) none 0 (zero_zsmul P)
  have hv := C50_value c
  unfold sbValue at hv
  rw [hv, natCast_zsmul] at this
  exact this

/-- `mulp` is scalar multiplication on curves without points of order two. -/
theorem C51_mulp (h2 : NoTwoTorsion n p q) (p1 : EPt) (P : (ecurve n p q).Point) (c : ℕ)
    (hP : Rep p1 P) : Rep (mulp p q n p1 c) (c • P) :=
  fromProjective_rep (mulf_rep h2 (toProjective_rep hP) c)

theorem precomp_rep {jp1 jp2 : JPt} {P Q : (ecurve n p q).Point} (hP : JRep jp1 P)
    (hQ : JRep jp2 Q) (i j : ℤ) (hi : i = -1 ∨ i = 0 ∨ i = 1) (hj : j = -1 ∨ j = 0 ∨ j = 1) :
    JRep (precomp p q n jp1 jp2 i j) (i • P + j • Q) := by
  rcases hi with rfl | rfl | rfl <;> rcases hj with rfl | rfl | rfl <;>
    simp [precomp]
  · rw [← neg_add_rev, add_comm]; exact negJ_rep (addf_rep hP hQ)
  · exact negJ_rep hP
  · have := negJ_rep (addf_rep hP (negJ_rep hQ))
    rwa [neg_add_rev, neg_neg, add_comm] at this
  · exact negJ_rep hQ
  · rfl
  · exact hQ
  · exact addf_rep hP (negJ_rep hQ)
  · exact hP
  · exact addf_rep hP hQ

theorem foldl_zip_rep (h2 : NoTwoTorsion n p q) {jp1 jp2 : JPt} {P Q : (ecurve n p q).Point}
    (hP : JRep jp1 P) (hQ : JRep jp2 Q) (l1 : List ℤ) :
    ∀ (l2 : List ℤ), (∀ d ∈ l1, d = -1 ∨ d = 0 ∨ d = 1) → (∀ d ∈ l2, d = -1 ∨ d = 0 ∨ d = 1) →
      l1.length = l2.length → ∀ (res : JPt) (v w : ℤ), JRep res (v • P + w • Q) →
      JRep ((l1.zip l2).foldl (fun res ij =>
        let res := doublef p q n res
        if ij.1 ≠ 0 ∨ ij.2 ≠ 0 then addf p q n res (precomp p q n jp1 jp2 ij.1 ij.2) else res) res)
        (l1.foldl (fun v d => 2 * v + d) v • P + l2.foldl (fun v d => 2 * v + d) w • Q) := by
  induction l1 with
  | nil =>
    intro l2 _ _ hl res v w h
    have : l2 = [] := List.eq_nil_of_length_eq_zero hl.symm
    subst this
    exact h
  | cons i l1 ih =>
    intro l2 h1 h3 hl res v w h
    cases l2 with
    | nil => simp at hl
    | cons j l2 =>
      rw [List.zip_cons_cons, List.foldl_cons, List.foldl_cons, List.foldl_cons]
      apply ih l2 (fun x hx => h1 x (by simp [hx])) (fun x hx => h3 x (by simp [hx]))
        (by simpa using hl)
      have hd := doublef_rep h2 h
      have hp := precomp_rep hP hQ i j (h1 i (by simp)) (h3 j (by simp))
      have hs := addf_rep hd hp
      have e : v • P + w • Q + (v • P + w • Q) + (i • P + j • Q) =
          (2 * v + i) • P + (2 * w + j) • Q := by module
      rw [e] at hs
      dsimp only
      split
      · exact hs
      · rename_i hz
        rw [not_or, not_not, not_not] at hz
        obtain ⟨rfl, rfl⟩ := hz
        have e' : v • P + w • Q + (v • P + w • Q) = (2 * v + 0) • P + (2 * w + 0) • Q := by module
        rw [e'] at hd
        exact hd

theorem sbFold_replicate (k : ℕ) (l : List ℤ) :
    (List.replicate k (0 : ℤ) ++ l).foldl (fun v d => 2 * v + d) 0 =
      l.foldl (fun v d => 2 * v + d) 0 := by
  induction k with
  | zero => rfl
  | succ k ih => rw [List.replicate_succ, List.cons_append, List.foldl_cons]; exact ih

theorem muladdf_rep (h2 : NoTwoTorsion n p q) {jp1 jp2 : JPt} {P Q : (ecurve n p q).Point}
    (hP : JRep jp1 P) (hQ : JRep jp2 Q) (c1 c2 : ℕ) :
    JRep (muladdf p q n jp1 c1 jp2 c2) (c1 • P + c2 • Q) := by
  have hd : ∀ (k c : ℕ), ∀ d ∈ List.replicate k (0 : ℤ) ++ signedBin c, d = -1 ∨ d = 0 ∨ d = 1 := by
    intro k c d hd
    rcases List.mem_append.mp hd with h | h
    · exact .inr (.inl (List.eq_of_mem_replicate h))
    · exact C50_digits c d h
  have := foldl_zip_rep h2 hP hQ
    (List.replicate (max (signedBin c1).length (signedBin c2).length - (signedBin c1).length) 0 ++ signedBin c1)
    (List.replicate (max (signedBin c1).length (signedBin c2).length - (signedBin c2).length) 0 ++ signedBin c2)
    (hd _ _) (hd _ _) (by simp only [List.length_append, List.length_replicate]; omega) none 0 0
    (by rw [zero_zsmul, zero_zsmul, add_zero]; rfl)
  rw [sbFold_replicate, sbFold_replicate] at this
  have hv1 := C50_value c1
  have hv2 := C50_value c2
  unfold sbValue at hv1 hv2
  rw [hv1, hv2, natCast_zsmul, natCast_zsmul] at this
  exact this

/-- `muladdp` is the sum of two scalar multiples on curves without points of order two. -/
theorem C51_muladdp (h2 : NoTwoTorsion n p q) (p1 p2 : EPt) (P Q : (ecurve n p q).Point)
    (c1 c2 : ℕ) (hP : Rep p1 P) (hQ : Rep p2 Q) :
    Rep (muladdp p q n p1 c1 p2 c2) (c1 • P + c2 • Q) :=
  fromProjective_rep (muladdf_rep h2 (toProjective_rep hP) (toProjective_rep hQ) c1 c2)

/-- The fast and the slow multiplication agree as points of the field. -/
theorem C51_agree (h2 : NoTwoTorsion n p q) (p1 : EPt) (P : (ecurve n p q).Point) (c : ℕ)
    (hP : Rep p1 P) :
    (mulp p q n p1 c = none ∧ mulA p q n p1 c = none) ∨
    ∃ x y x' y' : ℤ, mulp p q n p1 c = some (x, y) ∧ mulA p q n p1 c = some (x', y') ∧
      (x : ZMod n) = x' ∧ (y : ZMod n) = y' := by
  have h1 := C51_mulp h2 p1 P c hP
  have h2 := C51_mul p1 P c hP
  cases e1 : mulp p q n p1 c with
  | none =>
    rw [e1] at h1
    have h1 : c • P = 0 := h1
    cases e2 : mulA p q n p1 c with
    | none => exact .inl ⟨rfl, rfl⟩
    | some b =>
      rw [e2] at h2
      obtain ⟨hh, h2⟩ := h2
      exact absurd (h2.symm.trans h1) (Point.some_ne_zero hh)
  | some a =>
    rw [e1] at h1
    obtain ⟨hh1, h1⟩ := h1
    cases e2 : mulA p q n p1 c with
    | none =>
      rw [e2] at h2
      exact absurd (h1.symm.trans h2) (Point.some_ne_zero hh1)
    | some b =>
      rw [e2] at h2
      obtain ⟨hh2, h2⟩ := h2
      rw [h1] at h2
      injection h2 with hx hy
      exact .inr ⟨_, _, _, _, rfl, rfl, hx, hy⟩

/-- The hypothesis on points of order two is needed: on `y^2 = x^3 + x + 5` over the field with 7
elements the point `(1, 0)` has order two; `mul` gives `None` for twice the point and `mulp` the
pair `(0, 0)`, which is not on the curve. -/
theorem C51_two_torsion_wrong : element (some (1, 0)) (-1) (-5) 7 = true ∧
    mulA (-1) (-5) 7 (some (1, 0)) 2 = none ∧ mulp (-1) (-5) 7 (some (1, 0)) 2 = some (0, 0) ∧
    element (some (0, 0)) (-1) (-5) 7 = false := by decide +kernel

end Verif
