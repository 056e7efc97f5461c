import Verif.Proofs.Pocklington
import Mathlib.FieldTheory.IsAlgClosed.AlgebraicClosure
import Mathlib.Tactic.LinearCombination
/-
A primality criterion from a prime factor of `N + 1` (Morrison's test): an element of norm one of
`(Z/N)[√D]` whose order is divisible by the large prime `r`.
-/

namespace Verif

/-- Product of `a0 + a1 √D` and `b0 + b1 √D` modulo `m`. -/
def mulQ (D m : Nat) (a b : Nat × Nat) : Nat × Nat :=
  ((a.1 * b.1 + D * (a.2 * b.2)) % m, (a.1 * b.2 + a.2 * b.1) % m)

def powQAux (D m : Nat) : Nat → Nat × Nat → Nat → Nat × Nat → Nat × Nat
  | 0, _, _, acc => acc
  | f + 1, a, e, acc =>
    bif e.beq 0 then acc
    else powQAux D m f (mulQ D m a a) (e / 2) (bif (e % 2).beq 1 then mulQ D m acc a else acc)

def powQ (D m : Nat) (a : Nat × Nat) (e : Nat) : Nat × Nat := powQAux D m (e.log2 + 1) a e (1, 0)

section
variable {K : Type*} [Field K] {D m : ℕ} {δ : K}

def evQ (δ : K) (a : Nat × Nat) : K := a.1 + a.2 * δ

theorem cast_mod_field (hm : (m : K) = 0) (a : ℕ) : ((a % m : ℕ) : K) = a := by
  conv_rhs => rw [← Nat.mod_add_div a m]
  rw [Nat.cast_add, Nat.cast_mul, hm, zero_mul, add_zero]

theorem evQ_mulQ (hm : (m : K) = 0) (hD : δ ^ 2 = D) (a b : Nat × Nat) :
    evQ δ (mulQ D m a b) = evQ δ a * evQ δ b := by
  simp only [evQ, mulQ, cast_mod_field hm]
  push_cast
  linear_combination (-(a.2 * b.2 : K)) * hD

theorem evQ_powQAux (hm : (m : K) = 0) (hD : δ ^ 2 = D) : ∀ (f : ℕ) (a : Nat × Nat) (e : ℕ)
    (acc : Nat × Nat), e < 2 ^ f → evQ δ (powQAux D m f a e acc) = evQ δ acc * evQ δ a ^ e := by
  intro f
  induction f with
  | zero =>
    intro a e acc h
    have : e = 0 := by simpa using h
    subst this
    simp [powQAux]
  | succ f ih =>
    intro a e acc h
    rw [powQAux]
    by_cases h0 : e = 0
    · subst h0; simp
    · have hb : e.beq 0 = false := by
        cases e with
        | zero => exact absurd rfl h0
        | succ e => rfl
      rw [hb, cond_false, ih _ _ _ (by rw [pow_succ] at h; omega), evQ_mulQ hm hD, ← pow_two,
        ← pow_mul]
      rcases Nat.mod_two_eq_zero_or_one e with h2 | h2
      · rw [h2]
        show evQ δ acc * _ = _
        rw [show 2 * (e / 2) = e by omega]
      · rw [h2]
        show evQ δ (mulQ D m acc a) * _ = _
        rw [evQ_mulQ hm hD, mul_assoc, ← pow_succ', show 2 * (e / 2) + 1 = e by omega]

theorem evQ_powQ (hm : (m : K) = 0) (hD : δ ^ 2 = D) (a : Nat × Nat) (e : ℕ) :
    evQ δ (powQ D m a e) = evQ δ a ^ e := by
  unfold powQ
  rw [evQ_powQAux hm hD _ _ _ _ Nat.lt_log2_self]
  simp [evQ]

end

theorem lucas_core {K : Type*} [Field K] (N r k D a b l : ℕ) (hN : 1 < N) (hr : r.Prime)
    (hk : N + 1 = r * k) (hnorm : a ^ 2 % N = (1 + D * b ^ 2) % N)
    (h1 : powQ D N (a, b) (N + 1) = (1, 0)) (w : ℕ × ℕ) (hw : w = powQ D N (a, b) k)
    (hg : Nat.gcd ((w.1 + (N - 1)) ^ 2 + (N - 1) * (D * w.2 ^ 2)) N = 1)
    (hl : l.Prime) (hdvd : l ∣ N) [CharP K l] (δ : K) (hδ : δ ^ 2 = D) : r ≤ l + 1 := by
  have : Fact l.Prime := ⟨hl⟩
  have : ExpChar K l := ExpChar.prime hl
  have hcard : ∀ x : ℕ, (x : K) ^ l = x := by
    intro x
    have := congrArg (ZMod.castHom (dvd_refl l) K) (ZMod.pow_card (x : ZMod l))
    rwa [map_pow, map_natCast] at this
  have hm : (N : K) = 0 := by
    obtain ⟨t, rfl⟩ := hdvd
    rw [Nat.cast_mul, CharP.cast_eq_zero, zero_mul]
  set v : K := evQ δ (a, b) with hv
  have hn : v * ((a : K) - b * δ) = 1 := by
    have e : ((a ^ 2 % N : ℕ) : K) = ((1 + D * b ^ 2) % N : ℕ) := by rw [hnorm]
    rw [cast_mod_field hm, cast_mod_field hm] at e
    push_cast at e
    simp only [hv, evQ]
    linear_combination e - (b : K) ^ 2 * hδ
  have hv0 : v ≠ 0 := left_ne_zero_of_mul_eq_one hn
  -- Frobenius
  have hfrob : v ^ l = a + b * δ ^ l := by
    simp only [hv, evQ]
    rw [add_pow_expChar, mul_pow, hcard, hcard]
  have hδl : δ ^ l = δ ∨ δ ^ l = -δ := by
    apply sq_eq_sq_iff_eq_or_eq_neg.mp
    rw [← pow_mul, mul_comm, pow_mul, hδ, hcard]
  have hord : v ^ (l - 1) = 1 ∨ v ^ (l + 1) = 1 := by
    rcases hδl with h | h
    · left
      have : v ^ l = v := by rw [hfrob, h]; rfl
      have h' : v ^ (l - 1) * v = 1 * v := by
        rw [← pow_succ, Nat.sub_add_cancel hl.one_le, this, one_mul]
      exact mul_right_cancel₀ hv0 h'
    · right
      rw [pow_succ, hfrob, h, mul_neg, ← sub_eq_add_neg, mul_comm]
      exact hn
  -- the element of order r
  have hwv : evQ δ w = v ^ k := by rw [hw]; exact evQ_powQ hm hδ _ _
  have hwr : evQ δ w ^ r = 1 := by
    rw [hwv, ← pow_mul, mul_comm, ← hk, hv, ← evQ_powQ hm hδ, h1]
    simp [evQ]
  have hw1 : evQ δ w ≠ 1 := by
    intro h
    simp only [evQ] at h
    have hz : (((w.1 + (N - 1)) ^ 2 + (N - 1) * (D * w.2 ^ 2) : ℕ) : K) = 0 := by
      push_cast
      rw [Nat.cast_sub (by omega), hm]
      push_cast
      linear_combination (w.1 - 1 - w.2 * δ : K) * h + (w.2 : K) ^ 2 * hδ
    rw [CharP.cast_eq_zero_iff K l] at hz
    have := Nat.dvd_gcd hz hdvd
    rw [hg] at this
    exact hl.one_lt.ne' (Nat.dvd_one.mp this)
  have hro : orderOf (evQ δ w) = r := by
    have : Fact r.Prime := ⟨hr⟩
    exact orderOf_eq_prime hwr hw1
  rcases hord with h | h
  · have h' : evQ δ w ^ (l - 1) = 1 := by
      rw [hwv, ← pow_mul, mul_comm, pow_mul, h, one_pow]
    have := orderOf_dvd_of_pow_eq_one h'
    rw [hro] at this
    have := Nat.le_of_dvd (by have := hl.two_le; omega) this
    omega
  · have h' : evQ δ w ^ (l + 1) = 1 := by
      rw [hwv, ← pow_mul, mul_comm, pow_mul, h, one_pow]
    have := orderOf_dvd_of_pow_eq_one h'
    rw [hro] at this
    exact Nat.le_of_dvd (by omega) this

/-- If `a + b√D` has norm one modulo `N`, its power `N+1 = r·k` is one, and the `k`-th power minus
one has invertible norm, with `r` a prime larger than `√N + 1`, then `N` is prime. -/
theorem lucas_prime (N r k D a b : ℕ) (hN : 1 < N) (hr : r.Prime) (hk : N + 1 = r * k)
    (hbig : N < (r - 1) ^ 2) (hnorm : a ^ 2 % N = (1 + D * b ^ 2) % N)
    (h1 : powQ D N (a, b) (N + 1) = (1, 0))
    (hg : (let w := powQ D N (a, b) k
      Nat.gcd ((w.1 + (N - 1)) ^ 2 + (N - 1) * (D * w.2 ^ 2)) N) = 1) : N.Prime := by
  by_contra hnp
  have hl := Nat.minFac_prime (show N ≠ 1 by omega)
  have hdvd := Nat.minFac_dvd N
  have hsq : N.minFac ^ 2 ≤ N := Nat.minFac_sq_le_self (by omega) hnp
  generalize N.minFac = l at hl hdvd hsq
  have : Fact l.Prime := ⟨hl⟩
  have : CharP (AlgebraicClosure (ZMod l)) l :=
    charP_of_injective_algebraMap (algebraMap (ZMod l) _).injective l
  obtain ⟨δ, hδ⟩ :=
    IsAlgClosed.exists_pow_nat_eq (D : AlgebraicClosure (ZMod l)) (n := 2) (by norm_num)
  have hrl := lucas_core N r k D a b l hN hr hk hnorm h1 _ rfl hg hl hdvd δ hδ
  have : (r - 1) ^ 2 ≤ l ^ 2 := Nat.pow_le_pow_left (by omega) 2
  omega

end Verif
