import Verif.Props.EcNonce
import Mathlib.Data.Nat.Count
/-
C122: how evenly private EC keys and ECDSA nonces are distributed.
-/

namespace Verif
open Spec

/-- How many of the numbers below `n` leave remainder `v` modulo `m`, if `m ≤ n < 2 m`. -/
theorem count_mod {m n v : ℕ} (hv : v < m) (h1 : m ≤ n) (h2 : n < 2 * m) :
    ((Finset.range n).filter fun r => r % m = v).card = if v < n - m then 2 else 1 := by
  split
  · rename_i h
    have : ((Finset.range n).filter fun r => r % m = v) = {v, v + m} := by
      ext r
      simp only [Finset.mem_filter, Finset.mem_range, Finset.mem_insert, Finset.mem_singleton]
      constructor
      · rintro ⟨hr, rfl⟩
        have := Nat.div_add_mod r m
        have : r / m < 2 := by rw [Nat.div_lt_iff_lt_mul (by omega)]; omega
        interval_cases hd : r / m <;> omega
      · rintro (rfl | rfl)
        · exact ⟨by omega, Nat.mod_eq_of_lt hv⟩
        · exact ⟨by omega, by rw [Nat.add_mod_right, Nat.mod_eq_of_lt hv]⟩
    rw [this, Finset.card_pair (by omega)]
  · rename_i h
    have : ((Finset.range n).filter fun r => r % m = v) = {v} := by
      ext r
      simp only [Finset.mem_filter, Finset.mem_range, Finset.mem_singleton]
      constructor
      · rintro ⟨hr, rfl⟩
        have := Nat.div_add_mod r m
        have : r / m < 2 := by rw [Nat.div_lt_iff_lt_mul (by omega)]; omega
        interval_cases hd : r / m <;> omega
      · rintro rfl
        exact ⟨by omega, Nat.mod_eq_of_lt hv⟩
    rw [this, Finset.card_singleton]

theorem named_size {name : String} {C : NistCurve} (h : curveByName name = .ok C) :
    C.N - 1 ≤ 2 ^ C.bits ∧ 2 ^ C.bits < 2 * (C.N - 1) ∧ 2 ^ C.bits - (C.N - 1) < 2 ^ (C.bits / 2 + 130) := by
  have h1 : nistCurve 256 = .ok P256 := by decide +kernel
  have h2 : nistCurve 384 = .ok P384 := by decide +kernel
  have h3 : nistCurve 521 = .ok P521 := by decide +kernel
  unfold curveByName at h
  split at h
  · rw [h1] at h; cases h; decide +kernel
  split at h
  · rw [h2] at h; cases h; decide +kernel
  split at h
  · rw [h3] at h; cases h; decide +kernel
  · cases h

/-- The draws of `getrandbits(bits)` from which `key_pair` makes the private number `d`. -/
def Spec.keyDraws (C : NistCurve) (d : ℕ) : Finset ℕ := (Finset.range (2 ^ C.bits)).filter fun r => (C.keyPair r).1 = d

/-- **C122.** Every private number from 1 to N - 1 arises from one or two draws; from two exactly if it is at most
`2 ^ bits - (N - 1)`. -/
theorem C122_keys {name : String} {C : NistCurve} (h : curveByName name = .ok C) {d : ℕ} (h0 : 0 < d) (hd : d < C.N) :
    (keyDraws C d).card = if d ≤ 2 ^ C.bits - (C.N - 1) then 2 else 1 := by
  obtain ⟨h1, h2, -⟩ := named_size h
  have : keyDraws C d = (Finset.range (2 ^ C.bits)).filter fun r => r % (C.N - 1) = d - 1 := by
    unfold keyDraws NistCurve.keyPair
    ext r
    simp only [Finset.mem_filter]
    exact and_congr_right fun _ => by omega
  rw [this, count_mod (by omega) h1 h2]
  refine if_congr ?_ rfl rfl
  omega

theorem signLoop_draw (C : NistCurve) (h priv r k r0 : ℕ) : ∀ (fuel a b : ℕ),
    C.signLoop h priv r fuel a b (some k) = C.signLoop h priv r0 fuel a b (some k)
  | 0, _, _ => rfl
  | f + 1, a, b => by
    unfold NistCurve.signLoop
    simp only [Option.getD_some]
    split
    · split
      · rfl
      · split <;> exact signLoop_draw ..
    · rfl

/-- **C122.** The nonce of a signature is made from its draw like a private number: signing with draw `r` is signing
with the nonce `key_pair` would give. -/
theorem C122_nonce (C : NistCurve) (fuel h priv r r0 : ℕ) :
    C.sign fuel h priv none r = C.sign fuel h priv (some (C.keyPair r).1) r0 := by
  unfold NistCurve.sign
  have : C.signLoop (NistCurve.shrink C.N h) priv r fuel 0 0 none =
      C.signLoop (NistCurve.shrink C.N h) priv r0 fuel 0 0 (some (C.keyPair r).1) := by
    cases fuel with
    | zero => rfl
    | succ f =>
      unfold NistCurve.signLoop NistCurve.keyPair
      simp only [Option.getD_some, Option.getD_none, true_or, if_true]
      split
      · rfl
      · split <;> exact signLoop_draw ..
  rw [this]

/-- **C122.** No two of the private numbers have the same public point. -/
theorem C122_public {C : NistCurve} (hC : SoundCurve C) {a b : ℕ} (ha : a < C.N) (hb : b < C.N)
    (h : C.publicKeyFor a = C.publicKeyFor b) : a = b := by
  have : Fact C.p.Prime := ⟨hC.p_prime⟩
  obtain ⟨G, hG, -⟩ := hC.base
  have e1 := C51_mulp hC.two_torsion (some C.G) G a hG
  have e2 := C51_mulp hC.two_torsion (some C.G) G b hG
  change Rep (C.publicKeyFor a) _ at e1
  change Rep (C.publicKeyFor b) _ at e2
  rw [h] at e1
  have e : a • G = b • G := by
    generalize C.publicKeyFor b = q at e1 e2
    cases q with
    | none => exact e1.trans e2.symm
    | some xy => obtain ⟨_, r1⟩ := e1; obtain ⟨_, r2⟩ := e2; exact r1.trans r2.symm
  have := (nsmul_eq_nsmul_iff_modEq).mp e
  rw [C55_order hC G hG] at this
  exact Nat.ModEq.eq_of_lt_of_lt this ha hb

/-- **C122.** The private numbers that arise twice are a fraction of less than `2 ^ -31` (P-256), `2 ^ -193` (P-384) or
`2 ^ -259` (P-521) of all. -/
theorem C122_bias : (2 ^ P256.bits - (P256.N - 1)) * 2 ^ 31 < P256.N - 1 ∧
    (2 ^ P384.bits - (P384.N - 1)) * 2 ^ 193 < P384.N - 1 ∧ (2 ^ P521.bits - (P521.N - 1)) * 2 ^ 259 < P521.N - 1 := by
  decide +kernel

/-! ### Non-trivial instances -/

example : (keyDraws P256 1).card = 2 := (C122_keys (name := "P-256") (by decide +kernel) (by decide) (by decide +kernel)).trans (by decide +kernel)

example : (keyDraws P256 (P256.N - 1)).card = 1 := (C122_keys (name := "P-256") (by decide +kernel) (by decide +kernel) (by decide +kernel)).trans (by decide +kernel)

example : P384.publicKeyFor 3 ≠ P384.publicKeyFor 5 := fun h => absurd (C122_public C55_P384 (by decide +kernel) (by decide +kernel) h) (by decide)

end Verif
