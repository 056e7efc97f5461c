import Verif.Proofs.EcField
/-
Absence of points of order two: `x^3 - 3x - q` has no root modulo the prime.  A root `r` would make
evaluation at `r` a ring map from `F_p[x]/(x^3 - 3x - q)`; there `x^p - x` is invertible (checked by
the kernel), but it evaluates to `r^p - r = 0`.
-/

namespace Verif

/-- Product of `a0 + a1 x + a2 x^2` and `b0 + b1 x + b2 x^2` modulo `x^3 - 3x - q` and `m`. -/
def mulT (q m : Nat) (a b : Nat × Nat × Nat) : Nat × Nat × Nat :=
  match a, b with
  | (a0, a1, a2), (b0, b1, b2) =>
    ((a0 * b0 + q * (a1 * b2 + a2 * b1)) % m,
     (a0 * b1 + a1 * b0 + 3 * (a1 * b2 + a2 * b1) + q * (a2 * b2)) % m,
     (a0 * b2 + a1 * b1 + a2 * b0 + 3 * (a2 * b2)) % m)

def powTAux (q m : Nat) : Nat → Nat × Nat × Nat → Nat → Nat × Nat × Nat → Nat × Nat × Nat
  | 0, _, _, acc => acc
  | f + 1, a, e, acc =>
    bif e.beq 0 then acc
    else powTAux q m f (mulT q m a a) (e / 2) (bif (e % 2).beq 1 then mulT q m acc a else acc)

def powT (q m : Nat) (a : Nat × Nat × Nat) (e : Nat) : Nat × Nat × Nat :=
  powTAux q m (e.log2 + 1) a e (1, 0, 0)

section
variable {m : ℕ} {r : ZMod m}

/-- Evaluation at `r`. -/
def evT (r : ZMod m) (a : Nat × Nat × Nat) : ZMod m := a.1 + a.2.1 * r + a.2.2 * r ^ 2

theorem evT_mulT {q : ℕ} (hr : r ^ 3 = 3 * r + q) (a b : Nat × Nat × Nat) :
    evT r (mulT q m a b) = evT r a * evT r b := by
  obtain ⟨a0, a1, a2⟩ := a
  obtain ⟨b0, b1, b2⟩ := b
  simp only [evT, mulT, ZMod.natCast_mod]
  push_cast
  linear_combination (-(a1 * b2 + a2 * b1 : ZMod m) - a2 * b2 * r) * hr

theorem evT_powTAux {q : ℕ} (hr : r ^ 3 = 3 * r + q) : ∀ (f : ℕ) (a : Nat × Nat × Nat) (e : ℕ)
    (acc : Nat × Nat × Nat), e < 2 ^ f → evT r (powTAux q m f a e acc) = evT r acc * evT r a ^ e := by
  intro f
  induction f with
  | zero =>
    intro a e acc h
    have : e = 0 := by simpa using h
    subst this
    simp [powTAux]
  | succ f ih =>
    intro a e acc h
    rw [powTAux]
    by_cases h0 : e = 0
    · subst h0; simp
    · have hb : e.beq 0 = false := by
        cases e with
        | zero => exact absurd rfl h0
        | succ e => rfl
      rw [hb, cond_false, ih _ _ _ (by rw [pow_succ] at h; omega), evT_mulT hr, ← pow_two, ← pow_mul]
      rcases Nat.mod_two_eq_zero_or_one e with h2 | h2
      · rw [h2]
        show evT r acc * _ = _
        rw [show 2 * (e / 2) = e by omega]
      · rw [h2]
        show evT r (mulT q m acc a) * _ = _
        rw [evT_mulT hr, mul_assoc, ← pow_succ', show 2 * (e / 2) + 1 = e by omega]

theorem evT_powT {q : ℕ} (hr : r ^ 3 = 3 * r + q) (a : Nat × Nat × Nat) (e : ℕ) :
    evT r (powT q m a e) = evT r a ^ e := by
  unfold powT
  rw [evT_powTAux hr _ _ _ _ Nat.lt_log2_self]
  simp [evT]

end

/-- The certificate: `u` is the inverse of `x^p - x`. -/
def noRootCert (q m : Nat) (u : Nat × Nat × Nat) : Bool :=
  match powT q m (0, 1, 0) m with
  | (h0, h1, h2) => mulT q m (h0, h1 + (m - 1), h2) u == (1, 0, 0)

theorem no_root {m q : ℕ} [hm : Fact m.Prime] (u : Nat × Nat × Nat)
    (h : noRootCert q m u = true) (r : ZMod m) : r ^ 3 ≠ 3 * r + q := by
  intro hr
  unfold noRootCert at h
  have hx := evT_powT (m := m) hr (0, 1, 0) m
  generalize powT q m (0, 1, 0) m = t at h hx
  obtain ⟨h0, h1, h2⟩ := t
  simp only [beq_iff_eq] at h
  have he := evT_mulT (m := m) hr (h0, h1 + (m - 1), h2) u
  rw [h] at he
  have e1 : evT r ((0, 1, 0) : Nat × Nat × Nat) = r := by simp [evT]
  rw [e1, ZMod.pow_card] at hx
  have hz : evT r (h0, h1 + (m - 1), h2) = 0 := by
    simp only [evT] at hx ⊢
    rw [Nat.cast_add, Nat.cast_sub hm.out.one_le]
    simp only [CharP.cast_eq_zero, Nat.cast_one]
    linear_combination hx
  rw [hz, zero_mul] at he
  simp [evT] at he

theorem noTwoTorsion_of_cert {n : ℕ} [hn : Fact n.Prime] (hodd : n ≠ 2) {p q : ℤ} (qn : ℕ) (hp : p = 3)
    (hq : q = qn) (u : Nat × Nat × Nat) (h : noRootCert qn n u = true) : NoTwoTorsion n p q := by
  intro P hP
  cases P with
  | zero => rfl
  | some x y hns =>
    exfalso
    have h2 : (2 : ZMod n) ≠ 0 := by
      intro h
      have : ((2 : ℕ) : ZMod n) = 0 := by exact_mod_cast h
      rw [ZMod.natCast_eq_zero_iff] at this
      exact hodd ((Nat.prime_dvd_prime_iff_eq hn.out Nat.prime_two).mp this)
    have hy : y = 0 := by
      by_contra hy0
      obtain ⟨_, _, hh, he⟩ := (add_cases hns hns).2.1 rfl
        (by rw [← two_mul]; exact mul_ne_zero h2 hy0)
      rw [hP] at he
      exact WeierstrassCurve.Affine.Point.some_ne_zero hh he.symm
    have he := equation_ecurve.mp hns.1
    subst hp hq hy
    apply no_root u h x
    push_cast at he
    linear_combination -he

end Verif
