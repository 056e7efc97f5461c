import Verif.Model.Elliptic
import Mathlib.Tactic.Ring
/-
Property C48: extended Euclid and modular inverse (`/repo/src/jwkest/elliptic.py:85-104`).
-/

namespace Verif

/-- The loop keeps both Bezout identities and the gcd. -/
theorem euclidLoop_bezout (A B : Int) (a b x xx y yy : Int)
    (h1 : xx * A + yy * B = a) (h2 : x * A + y * B = b) (hg : Int.gcd a b = Int.gcd A B) :
    (euclidLoop a b x xx y yy).1 * A + (euclidLoop a b x xx y yy).2.1 * B =
      (euclidLoop a b x xx y yy).2.2 ∧
    (euclidLoop a b x xx y yy).2.2.natAbs = Int.gcd A B := by
  fun_induction euclidLoop a b x xx y yy with
  | case1 a x xx y yy => exact ⟨h1, by rw [← hg, Int.gcd_zero_right]⟩
  | case2 a b x xx y yy hb q ih =>
    apply ih h2
    · have : a.fmod b = a - b * q := by
        have := Int.mul_fdiv_add_fmod a b
        show _ = a - b * a.fdiv b
        omega
      rw [this, ← h1, ← h2]
      ring
    · rw [← hg, Int.fmod_def, Int.gcd_sub_mul_left_right, Int.gcd_comm]

/-- C48: `euclid(a, b)` returns `(x, y, g)` with `x*a + y*b = g` and `|g|` the greatest common
divisor. -/
theorem C48_euclid (a b : Int) :
    (euclid a b).1 * a + (euclid a b).2.1 * b = (euclid a b).2.2 ∧
    (euclid a b).2.2.natAbs = Int.gcd a b :=
  euclidLoop_bezout a b a b 0 1 1 0 (by omega) (by omega) rfl

/-- Size bound: on `a > b ≥ 0`, coefficients with opposite signs stay below half the modulus. -/
theorem euclidLoop_bound (N : Int) (a b x xx y yy X XX σ : Int) (hσ : σ = 1 ∨ σ = -1)
    (hx : x = σ * X) (hxx : xx = -σ * XX) (hX : 0 ≤ X) (hXX : 0 ≤ XX) (hab : b < a) (hb : 0 ≤ b)
    (hN : X * a + XX * b = N) (h2 : 2 * XX ≤ N) :
    2 * (euclidLoop a b x xx y yy).1 ≤ N ∧ -N ≤ 2 * (euclidLoop a b x xx y yy).1 := by
  fun_induction euclidLoop a b x xx y yy generalizing X XX σ with
  | case1 a x xx y yy =>
    subst hxx
    rcases hσ with rfl | rfl <;> constructor <;> simp <;> omega
  | case2 a b x xx y yy hb0 q ih =>
    have hbp : 0 < b := by omega
    have hq : 0 ≤ q := Int.fdiv_nonneg (by omega) hb
    have hm0 := Int.fmod_nonneg_of_pos a hbp
    have hm1 := Int.fmod_lt_of_pos a hbp
    have hdef : a.fmod b = a - b * q := Int.fmod_def a b
    apply ih (XX + q * X) X (-σ)
    · omega
    · subst hx hxx
      ring
    · rw [hx]; ring
    · have := Int.mul_nonneg hq hX; omega
    · exact hX
    · exact hm1
    · exact hm0
    · rw [hdef, ← hN]
      simp only [Int.add_mul, Int.mul_sub]
      have : q * X * b = X * (b * q) := by
        rw [Int.mul_comm b q, ← Int.mul_assoc, Int.mul_comm X q]
      omega
    · have h3 : 2 ≤ a := by omega
      have h4 : X * 2 ≤ X * a := Int.mul_le_mul_of_nonneg_left h3 hX
      have h5 := Int.mul_nonneg hXX hb
      omega

theorem addUntilNonneg_spec (i n : Int) (hn : 0 < n) :
    0 ≤ addUntilNonneg i n ∧ (i < n → addUntilNonneg i n < n) ∧
      ∃ k, addUntilNonneg i n = i + k * n := by
  fun_induction addUntilNonneg i n with
  | case1 i h ih =>
    obtain ⟨a, b, k, hk⟩ := ih
    refine ⟨a, fun _ => b (by omega), k + 1, by rw [hk, Int.add_mul]; omega⟩
  | case2 i h => exact ⟨by omega, fun h => h, 0, by omega⟩

/-- C48: for coprime `a` and `n > 0`, `inv(a, n)` is the inverse of `a` modulo `n` and lies in
`[0, n)`. -/
theorem C48_inv (a n : Int) (hn : 0 < n) (hc : Int.gcd a n = 1) :
    (a * inv a n) % n = 1 % n ∧ 0 ≤ inv a n ∧ inv a n < n := by
  have hb : 2 * (euclid a n).1 ≤ n ∧ -n ≤ 2 * (euclid a n).1 := by
    unfold euclid
    rw [euclidLoop, dif_neg (by omega)]
    refine euclidLoop_bound n _ _ _ _ _ _ 1 0 1 (.inl rfl) (by simp) (by simp) (by simp) (by simp)
      (Int.fmod_lt_of_pos a hn) (Int.fmod_nonneg_of_pos a hn) (by omega) (by omega)
  have hg : (euclid a n).2.2 = 1 := by
    -- the gcd is reported with positive sign because all later remainders are nonnegative
    have pos : ∀ (a b x xx y yy : Int), 0 < a → 0 ≤ b → 0 < (euclidLoop a b x xx y yy).2.2 := by
      intro a b x xx y yy ha hb
      fun_induction euclidLoop a b x xx y yy with
      | case1 => exact ha
      | case2 a b x xx y yy hb0 q ih =>
        exact ih (by omega) (Int.fmod_nonneg_of_pos _ (by omega))
    have h1 : 0 < (euclid a n).2.2 := by
      unfold euclid
      rw [euclidLoop, dif_neg (by omega)]
      exact pos _ _ _ _ _ _ hn (Int.fmod_nonneg_of_pos _ hn)
    have h2 := (C48_euclid a n).2
    omega
  have hbz := (C48_euclid a n).1
  rw [hg] at hbz
  obtain ⟨h0, hlt, k, hk⟩ := addUntilNonneg_spec (euclid a n).1 n hn
  refine ⟨?_, h0, hlt (by omega)⟩
  unfold inv
  rw [hk]
  have : a * ((euclid a n).1 + k * n) = 1 + n * (a * k - (euclid a n).2.1) := by
    rw [Int.mul_add, Int.mul_sub, Int.mul_comm a (euclid a n).1]
    have e1 : a * (k * n) = n * (a * k) := by
      rw [Int.mul_comm k n, Int.mul_left_comm]
    rw [e1]
    have e2 : n * (euclid a n).2.1 = (euclid a n).2.1 * n := Int.mul_comm _ _
    omega
  rw [this, Int.add_mul_emod_self_left]

example : Int.gcd (-7) 1000003 = 1 ∧ (-7 * inv (-7) 1000003) % 1000003 = 1 :=
  ⟨by decide, (C48_inv (-7) 1000003 (by decide) (by decide)).1⟩

end Verif
