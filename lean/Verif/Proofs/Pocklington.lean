import Mathlib.FieldTheory.Finite.Basic
import Mathlib.GroupTheory.OrderOfElement
import Mathlib.Tactic.Ring
import Mathlib.Tactic.NormNum.Prime
/-
Primality proofs for the domain parameters: Pocklington's criterion, and modular powers that the
kernel can evaluate.
-/

namespace Verif

/-- Square-and-multiply with fuel; `bif` and structural recursion so that the kernel computes it. -/
def powModAux (m : Nat) : Nat → Nat → Nat → Nat → Nat
  | 0, _, _, acc => acc
  | f + 1, a, e, acc =>
    bif e.beq 0 then acc
    else powModAux m f (a * a % m) (e / 2) (bif (e % 2).beq 1 then acc * a % m else acc)

def powMod (a e m : Nat) : Nat := powModAux m (e.log2 + 1) a e (1 % m)

theorem powModAux_eq (m : Nat) : ∀ (f a e acc : Nat), e < 2 ^ f →
    powModAux m f a e acc % m = acc * a ^ e % m := by
  intro f
  induction f with
  | zero =>
    intro a e acc h
    have : e = 0 := by simpa using h
    subst this
    simp [powModAux]
  | succ f ih =>
    intro a e acc h
    rw [powModAux]
    by_cases h0 : e = 0
    · subst h0; simp
    · have hb : e.beq 0 = false := by
        cases e with
        | zero => exact absurd rfl h0
        | succ e => rfl
      rw [hb, cond_false, ih _ _ _ (by rw [pow_succ] at h; omega)]
      have hsq : ∀ k, (a * a % m) ^ k ≡ a ^ (2 * k) [MOD m] := by
        intro k
        have := (Nat.mod_modEq (a * a) m).pow k
        rw [show (a * a) ^ k = a ^ (2 * k) by rw [← pow_two, ← pow_mul]] at this
        exact this
      rcases Nat.mod_two_eq_zero_or_one e with h2 | h2
      · rw [h2]
        show acc * _ % m = _
        have := (Nat.ModEq.refl acc).mul (hsq (e / 2)) (n := m)
        rw [show 2 * (e / 2) = e by omega] at this
        exact this
      · rw [h2]
        show acc * a % m * _ % m = _
        have := (Nat.mod_modEq (acc * a) m).mul (hsq (e / 2))
        rw [mul_assoc, ← pow_succ', show 2 * (e / 2) + 1 = e by omega] at this
        exact this

theorem powModAux_lt {m : Nat} (hm : 0 < m) : ∀ (f a e acc : Nat), acc < m →
    powModAux m f a e acc < m := by
  intro f
  induction f with
  | zero => intro a e acc h; exact h
  | succ f ih =>
    intro a e acc h
    rw [powModAux]
    cases e.beq 0
    · apply ih
      cases (e % 2).beq 1
      · exact h
      · exact Nat.mod_lt _ hm
    · exact h

theorem powMod_eq (a e m : Nat) (hm : 0 < m) : powMod a e m = a ^ e % m := by
  have h1 := powModAux_eq m (e.log2 + 1) a e (1 % m) Nat.lt_log2_self
  have h2 := powModAux_lt hm (e.log2 + 1) a e (1 % m) (Nat.mod_lt _ hm)
  rw [Nat.mod_eq_of_lt h2] at h1
  unfold powMod
  rw [h1, Nat.mul_mod, Nat.mod_mod, ← Nat.mul_mod, one_mul]

/-- Pocklington's criterion: a divisor `A` of `N - 1` larger than the square root of `N`, and one
base that works for all prime divisors of `A`. -/
theorem pocklington (N a A : Nat) (hN : 1 < N) (hA : A ∣ N - 1) (hbig : N < (A + 1) ^ 2)
    (h1 : powMod a (N - 1) N = 1)
    (hq : ∀ q, q.Prime → q ∣ A → Nat.gcd (powMod a ((N - 1) / q) N + (N - 1)) N = 1) :
    N.Prime := by
  by_contra hnp
  obtain ⟨r, hr, hrN, hrr⟩ : ∃ r, r.Prime ∧ r ∣ N ∧ r ^ 2 ≤ N :=
    ⟨N.minFac, Nat.minFac_prime (by omega), Nat.minFac_dvd N,
      Nat.minFac_sq_le_self (by omega) hnp⟩
  have : Fact r.Prime := ⟨hr⟩
  have hN0 : 0 < N := by omega
  rw [powMod_eq _ _ _ hN0] at h1
  have cast_mod : ∀ x : Nat, ((x % N : Nat) : ZMod r) = (x : ZMod r) := by
    intro x
    rw [ZMod.natCast_eq_natCast_iff]
    exact (Nat.mod_modEq x N).of_dvd hrN
  have ha1 : (a : ZMod r) ^ (N - 1) = 1 := by
    have := cast_mod (a ^ (N - 1))
    rw [h1] at this
    simpa using this.symm
  have ha0 : (a : ZMod r) ≠ 0 := by
    intro h
    rw [h, zero_pow (by omega)] at ha1
    exact zero_ne_one ha1
  have hd : orderOf (a : ZMod r) ∣ N - 1 := orderOf_dvd_of_pow_eq_one ha1
  have hd' : orderOf (a : ZMod r) ∣ r - 1 :=
    orderOf_dvd_of_pow_eq_one (ZMod.pow_card_sub_one_eq_one ha0)
  obtain ⟨k, hk⟩ := hd
  have hcop : Nat.Coprime A k := by
    apply Nat.coprime_of_dvd
    intro q hqp hqA hqk
    have hg := hq q hqp hqA
    rw [powMod_eq _ _ _ hN0] at hg
    obtain ⟨j, rfl⟩ := hqk
    have hone : (a : ZMod r) ^ ((N - 1) / q) = 1 := by
      rw [hk, show orderOf (a : ZMod r) * (q * j) = q * (orderOf (a : ZMod r) * j) by ring,
        Nat.mul_div_cancel_left _ hqp.pos, pow_mul, pow_orderOf_eq_one, one_pow]
    have : r ∣ a ^ ((N - 1) / q) % N + (N - 1) := by
      rw [← ZMod.natCast_eq_zero_iff]
      rw [Nat.cast_add, cast_mod, Nat.cast_pow, hone, Nat.cast_sub (by omega),
        (ZMod.natCast_eq_zero_iff N r).mpr hrN]
      simp
    have h2 := Nat.dvd_gcd this hrN
    rw [hg] at h2
    exact hr.one_lt.ne' (Nat.dvd_one.mp h2)
  have hAd : A ∣ orderOf (a : ZMod r) := by
    rw [hk] at hA
    exact hcop.dvd_of_dvd_mul_right hA
  have hAr : A ≤ r - 1 := Nat.le_of_dvd (by have := hr.two_le; omega) (hAd.trans hd')
  have : (A + 1) ^ 2 ≤ r ^ 2 := Nat.pow_le_pow_left (by have := hr.two_le; omega) 2
  omega

end Verif
