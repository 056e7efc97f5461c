import Verif.Props.Curves
import Verif.Props.Kdf
/-
Properties C42 (agreement), C69–C73: what the curve code does not check
(`/repo/src/jwkest/ecc.py`, `/repo/src/jwkest/elliptic.py`).
-/

namespace Verif
open WeierstrassCurve.Affine Spec

/-! ### C42: both parties derive the same key -/

/-- C42: with matching party values, algorithm and length both sides of an ECDH exchange derive the
same key (or fail alike). -/
theorem C42_agreement (H : Hashes) (name : String) (C : NistCurve) (hn : curveByName name = .ok C)
    (a b : ℕ) (apu apv alg : Bytes) (dkLen : ℕ) :
    ecdhDeriveKey H C a (C.publicKeyFor b) apu apv alg dkLen =
      ecdhDeriveKey H C b (C.publicKeyFor a) apu apv alg dkLen := by
  unfold ecdhDeriveKey
  rw [(NistCurve.C54_agreement (C55_sound name C hn) a b).1]

/-- C42: with keys in range and lengths that fit, a key of the requested length is returned. -/
theorem C42_succeeds (H : Hashes) (hH : H.Lawful) (name : String) (C : NistCurve)
    (hn : curveByName name = .ok C) (a b : ℕ) (ha : 0 < a ∧ a < C.N) (hb : 0 < b ∧ b < C.N)
    (apu apv alg : Bytes) (dkLen : ℕ) (hu : apu.length < 2 ^ 32) (hv : apv.length < 2 ^ 32)
    (hd : dkLen < 2 ^ 32) :
    ∃ k, ecdhDeriveKey H C a (C.publicKeyFor b) apu apv alg dkLen = .ok k ∧
      k.length = (dkLen + 7) / 8 := by
  obtain ⟨z, hz⟩ := NistCurve.C54_succeeds (C55_sound name C hn) a b ha hb
  unfold ecdhDeriveKey
  rw [hz]
  simp only [Bind.bind, Except.bind, ecdhDeriveFromZ, ecdhOtherInfo, packI, if_pos hu, if_pos hv,
    if_pos hd]
  obtain ⟨out, ho, h1, h2, _⟩ := C41_concat H hH z (alg ++ natToBytesW 4 apu.length ++ apu ++
    natToBytesW 4 apv.length ++ apv ++ natToBytesW 4 dkLen) dkLen (by unfold dkBytesOf; omega)
  exact ⟨out, ho, by omega⟩

example : ∃ k, ecdhDeriveKey toyHashes P384 3 (P384.publicKeyFor 5) (ascii "Alice") (ascii "Bob")
    (ascii "A128GCM") 128 = .ok k ∧ k.length = 16 :=
  C42_succeeds toyHashes toyHashes_lawful "P-384" P384 (by rw [C55_by_name]; decide) 3 5
    (by decide +kernel) (by decide +kernel) _ _ _ 128 (by decide) (by decide) (by decide)

/-! ### C69: public keys are not validated -/

/-- The curve parameter `b` (`q` of `elliptic.py`) is never used by the scalar multiplication. -/
theorem C69_b_unused (p q q' n : ℤ) (P : EPt) (c : ℕ) : mulp p q n P c = mulp p q' n P c := rfl

/-- C69: `dh_z` therefore ignores the curve's `b`. -/
theorem C69_dh_b_unused (C : NistCurve) (b' : ℤ) (priv : ℕ) (pub : EPt) :
    C.dhZ priv pub = { C with b := b' }.dhZ priv pub := rfl

/-- C69: a peer point that is not on the curve is multiplied on the curve it does lie on. -/
theorem C69_other_curve (C : NistCurve) [Fact C.p.Prime] (hodd : C.p ≠ 2) (x y : ℤ)
    (hy : y.fmod C.p ≠ 0) (hT : NoTwoTorsion C.p C.a (curveQ x y C.a C.p)) :
    ∃ P : (ecurve C.p C.a (curveQ x y C.a C.p)).Point, Rep (some (x, y)) P ∧
      ∀ priv : ℕ, Rep (mulp C.a C.b C.p (some (x, y)) priv) (priv • P) := by
  obtain ⟨P, hP⟩ := rep_of_element hodd (C49_curve_q (p := C.a) x y) hy
  exact ⟨P, hP, fun priv => C51_mulp hT _ P priv hP⟩

/-- A pair off P-256 that has order three on its own curve. -/
def badPoint : ℤ × ℤ := (21, 0xca101717e74bacd49a0e8646127e81b67940fb5db4d32c916b090e0ea900a2fc)

def badQ : ℕ := 0xb6db6db6249249254924924924924924924924930000000000000000000008eb

/-- C69: for that peer value `dh_z` reveals the private key modulo 3: it raises iff 3 divides the
key, and otherwise returns one fixed string. -/
theorem C69_small_subgroup : element (some badPoint) P256.a P256.b P256.p = false ∧
    ∃ z, ∀ priv : ℕ, P256.dhZ priv (some badPoint) =
      if priv % 3 = 0 then .error .typeError else .ok z := by
  refine ⟨by decide +kernel, P256.int2bytes 21, fun priv => ?_⟩
  have hT : NoTwoTorsion P256.p P256.a badQ :=
    noTwoTorsion_of_cert (by decide +kernel) badQ rfl rfl
      (0x68525653e5782034063213f4eafe63dd78d9fc5c0e5da95ea58b87e30199c724,
       0x9b057325099c30591c74c43a7c1443787c7e9e35b07e22d96e3cd28d7b11fe32,
       0x2bd6424061166f232c9c6cdd560f5bd38e8c3e1871f54ae38f1c66ed90669336) (by decide +kernel)
  obtain ⟨P, hP⟩ := rep_of_element (n := P256.p) (p := P256.a) (q := badQ) (by decide +kernel)
    (x := badPoint.1) (y := badPoint.2) (by decide +kernel) (by decide +kernel)
  have h3 : 3 • P = 0 := by
    have := mulf_rep hT (toProjective_rep hP) 3
    rw [show mulf P256.a badQ P256.p (toProjective (some (badPoint.1, badPoint.2))) 3 = none by
      decide +kernel] at this
    exact this
  have key : ∀ c : ℕ, mulp P256.a P256.b P256.p (some badPoint) c =
      mulp P256.a P256.b P256.p (some badPoint) (c % 3) := by
    intro c
    have h1 := C51_mulp hT _ P c hP
    have h2 := C51_mulp hT _ P (c % 3) hP
    have e : c • P = (c % 3) • P := by
      conv_lhs => rw [← Nat.div_add_mod c 3]
      rw [add_nsmul, mul_comm, mul_nsmul', h3, nsmul_zero, zero_add]
    rw [e] at h1
    exact fromProjective_inj h1 h2
  unfold NistCurve.dhZ
  rw [key]
  have h0 := Nat.mod_lt priv (show 0 < 3 by norm_num)
  generalize priv % 3 = m at h0
  interval_cases m
  · decide +kernel
  · decide +kernel
  · decide +kernel

/-! ### C70: shortening the hash -/

namespace NistCurve
variable {C : NistCurve}

/-- C70: the hash is halved until it is at most `N`, so it is the longest prefix of its binary
digits whose value does not exceed `N`. -/
theorem C70_shrink (N h : ℕ) : ∃ k, shrink N h = h / 2 ^ k ∧ shrink N h ≤ N ∧
    ∀ j < k, N < h / 2 ^ j := by
  fun_induction shrink N h with
  | case1 h hc ih =>
    obtain ⟨k, e, hl, hj⟩ := ih
    refine ⟨k + 1, ?_, hl, ?_⟩
    · rw [e, Nat.div_div_eq_div_mul, pow_succ, mul_comm]
    · intro j hjk
      cases j with
      | zero => simpa using hc
      | succ j =>
        have := hj j (by omega)
        rwa [Nat.div_div_eq_div_mul, mul_comm 2, ← pow_succ] at this
  | case2 h hc => exact ⟨0, by simp, by omega, by simp⟩

/-- C70: a hash above `N` is treated like its half, in signing and in verification. -/
theorem C70_halved (h : ℕ) (hh : C.N < h) :
    (∀ sig pub, C.verify h sig pub = C.verify (h / 2) sig pub) ∧
    ∀ fuel priv k rnd, C.sign fuel h priv k rnd = C.sign fuel (h / 2) priv k rnd := by
  have e : shrink C.N h = shrink C.N (h / 2) := by
    rw [shrink, if_pos hh]
  constructor
  · intro sig pub; unfold verify; rw [e]
  · intro fuel priv k rnd; unfold sign; rw [e]

/-- C70: hence on P-256 two different 256-bit hashes have the same signatures. -/
theorem C70_collision : ∃ h h' : ℕ, h ≠ h' ∧ h < 2 ^ 256 ∧ h' < 2 ^ 256 ∧
    (∀ sig pub, P256.verify h sig pub = P256.verify h' sig pub) ∧
    ∀ fuel priv k rnd, P256.sign fuel h priv k rnd = P256.sign fuel h' priv k rnd :=
  ⟨2 ^ 256 - 1, (2 ^ 256 - 1) / 2, by decide +kernel, by decide +kernel, by decide +kernel,
    C70_halved (C := P256) _ (by decide +kernel)⟩

/-- C70: a hash not above `N` is used as it is; on P-521 that is every 512-bit hash. -/
theorem C70_unchanged (h : ℕ) (hh : h ≤ C.N) : shrink C.N h = h := by
  rw [shrink, if_neg (by omega)]

theorem C70_P521 (digest : Bytes) (hd : digest.length = 64) :
    shrink P521.N (bytesToNat digest) = bytesToNat digest := by
  apply C70_unchanged
  have := bytesToNat_lt digest
  rw [hd] at this
  exact le_of_lt (lt_of_lt_of_le this (by decide +kernel))

/-! ### C71: signatures are malleable -/

theorem val_neg_nsmul {N : ℕ} [NeZero N] {A : Type*} [AddCommGroup A] {G : A} (hG : N • G = 0)
    (z : ZMod N) : (-z).val • G = -(z.val • G) := by
  rw [eq_neg_iff_add_eq_zero, ← add_nsmul]
  have := nsmul_congr hG (a := (-z).val + z.val) (b := 0) (by simp)
  rwa [zero_nsmul] at this

/-- C71: from every accepted signature another one is made without the private key, by replacing
`s` with `N - s`. -/
theorem C71_negated (hC : SoundCurve C) (priv h : ℕ) (sig : Bytes)
    (hv : C.verify h sig (C.publicKeyFor priv) = .ok true) :
    let s := bytesToNat (sig.drop C.bytes)
    let sig' := sig.take C.bytes ++ C.int2bytes (C.N - s)
    C.verify h sig' (C.publicKeyFor priv) = .ok true ∧
      (C.N ≠ 2 → sig' ≠ sig) := by
  intro s sig'
  have : Fact C.p.Prime := ⟨hC.p_prime⟩
  have : Fact C.N.Prime := ⟨hC.N_prime⟩
  obtain ⟨G, hG, hNG⟩ := hC.base
  have hPub := C51_mulp hC.two_torsion (some C.G) G priv hG
  have hNQ : C.N • (priv • G) = 0 := by rw [smul_smul, mul_nsmul, hNG, nsmul_zero]
  unfold publicKeyFor at hv ⊢
  rw [(C53_verify hC G (priv • G) hG _ hPub h sig).1] at hv
  obtain ⟨r0, r1, s0, s1, x, y, hns, he, hx⟩ := hv
  have hlen : (sig.take C.bytes).length = C.bytes := by
    rw [List.length_take]
    by_contra hlt
    have : sig.length ≤ C.bytes := by omega
    rw [List.drop_eq_nil_of_le this] at s0
    simp [bytesToNat] at s0
  have e1 : sig'.take C.bytes = sig.take C.bytes := List.take_left' hlen
  have e2 : bytesToNat (sig'.drop C.bytes) = C.N - s := by
    rw [List.drop_left' hlen]
    unfold int2bytes
    rw [bytesToNat_longToBytes]
  have hneg : ((C.N - s : ℕ) : ZMod C.N) = -(s : ZMod C.N) := by
    rw [Nat.cast_sub (le_of_lt s1), ZMod.natCast_self, zero_sub]
  constructor
  · rw [(C53_verify hC G (priv • G) hG _ hPub h sig').1, e1, e2]
    refine ⟨r0, r1, by omega, by omega, x, _, (nonsingular_neg x y).mpr hns, ?_, hx⟩
    rw [hneg, inv_neg, mul_neg, mul_neg, val_neg_nsmul hNG, val_neg_nsmul hNQ, ← neg_add, he]
    rfl
  · intro hN2 heq
    rw [heq] at e2
    have h2s : C.N = 2 * s := by omega
    have hd : 2 ∣ C.N := ⟨s, h2s⟩
    exact hN2 ((Nat.prime_dvd_prime_iff_eq Nat.prime_two hC.N_prime).mp hd).symm

theorem bytesToNat_zeros (k : ℕ) (b : Bytes) : bytesToNat (List.replicate k 0 ++ b) = bytesToNat b := by
  induction k with
  | zero => rfl
  | succ k ih => rw [List.replicate_succ, List.cons_append, ← ih]; simp [bytesToNat]

/-- C71: zero bytes may be inserted before `s`: the length of a signature is not checked. -/
theorem C71_padded (h k : ℕ) (rb sb : Bytes) (pub : EPt) (hr : rb.length = C.bytes) :
    C.verify h (rb ++ List.replicate k 0 ++ sb) pub = C.verify h (rb ++ sb) pub := by
  unfold verify bytes2int
  rw [List.append_assoc, List.take_left' hr, List.drop_left' hr, List.take_left' hr,
    List.drop_left' hr, bytesToNat_zeros]

/-! ### C72: when `sign` returns -/

/-- C72: outcome of `sign` in terms of the nonce `k`: TypeError iff `N` divides the nonce; no
return iff the nonce gives `r = 0` or `s = 0`; otherwise a signature. -/
theorem C72_outcome (hC : SoundCurve C) [Fact C.p.Prime] (G : (ecurve C.p C.a C.b).Point)
    (hG : Rep (some C.G) G) (h priv k rnd : ℕ) :
    (C.N ∣ k ∧ ∀ fuel, C.sign (fuel + 2) h priv (some k) rnd = some (.error .typeError)) ∨
    ∃ (x y : ZMod C.p) (hns : (ecurve C.p C.a C.b).Nonsingular x y), k • G = .some x y hns ∧
      (x.val % C.N = 0 ∨ (shrink C.N h + x.val % C.N * priv) % C.N = 0 →
        ∀ fuel, C.sign fuel h priv (some k) rnd = none) ∧
      (x.val % C.N ≠ 0 → (shrink C.N h + x.val % C.N * priv) % C.N ≠ 0 →
        ∃ sig, ∀ fuel, C.sign (fuel + 2) h priv (some k) rnd = some (.ok sig)) := by
  have : Fact C.N.Prime := ⟨hC.N_prime⟩
  have hN0 := hC.N_prime.pos
  have hord := C55_order hC G hG
  have hKG := C51_mulp hC.two_torsion (some C.G) G k hG
  have hcases := signLoop_cases (C := C) (shrink C.N h) priv rnd (some k)
  unfold sign
  rw [Option.getD_some] at hcases
  cases hm : mulp C.a C.b C.p (some C.G) k with
  | none =>
    rw [hm] at hKG
    have hKG : k • G = 0 := hKG
    left
    constructor
    · rw [← hord]; exact addOrderOf_dvd_of_nsmul_eq_zero hKG
    · intro fuel
      rw [signLoop, if_pos (.inl rfl), Option.getD_some]
      simp only [hm]
  | some a =>
    obtain ⟨x, y⟩ := a
    rw [hm] at hKG
    obtain ⟨hns, hKG⟩ := hKG
    right
    refine ⟨_, _, hns, hKG, ?_⟩
    obtain ⟨x0, x1, _, _⟩ := fromProjective_range hm
    have hr : (x.fmod C.N).toNat = (x : ZMod C.p).val % C.N := by
      have hval : ((x : ZMod C.p).val : ℤ) = x := val_cast_eq x0 x1
      generalize (x : ZMod C.p).val = m at hval
      subst hval
      rw [Int.fmod_eq_emod_of_nonneg _ (by omega), ← Int.natCast_mod, Int.toNat_natCast]
    generalize hr' : (x : ZMod C.p).val % C.N = r at hr ⊢
    have hk0 : ((k : ℤ) : ZMod C.N) ≠ 0 := by
      intro h0
      rw [Int.cast_natCast, ZMod.natCast_eq_zero_iff, ← hord] at h0
      rw [addOrderOf_dvd_iff_nsmul_eq_zero.mp h0] at hKG
      exact Point.some_ne_zero hns hKG.symm
    have hs : ((inv k C.N * (shrink C.N h + r * priv : ℕ)).fmod C.N).toNat = 0 ↔
        (shrink C.N h + r * priv) % C.N = 0 := by
      have e := (toNat_fmod_cast C.N hN0 (inv k C.N * (shrink C.N h + r * priv : ℕ))).2.2
      rw [e, ZMod.val_eq_zero, Int.cast_mul, Int.cast_natCast, cast_inv _ hk0, mul_eq_zero,
        or_iff_right (inv_ne_zero hk0), ZMod.natCast_eq_zero_iff, Nat.dvd_iff_mod_eq_zero]
    have hne : ¬ ∃ e, ∀ fuel, C.signLoop (shrink C.N h) priv rnd (fuel + 1) 0 0 (some k) =
        some (.error e) := by
      rintro ⟨e, he⟩
      have := he 0
      rw [signLoop, if_pos (.inl rfl), Option.getD_some] at this
      simp only [hm] at this
      split at this <;> simp [signLoop] at this
    constructor
    · intro hz fuel
      rcases hcases with hc | ⟨x', y', r', s', hm', e1, e2, hr0, hs0, _⟩ | hc
      · exact absurd hc hne
      · rw [hm] at hm'
        cases hm'
        rw [hr] at e1
        subst e1
        rw [e2] at hs0
        rcases hz with hz | hz
        · exact absurd hz hr0
        · exact absurd (hs.mpr hz) hs0
      · rw [hc fuel]
    · intro hr0 hs0
      have hok : C.signLoop (shrink C.N h) priv rnd 2 0 0 (some k) ≠ none := by
        rw [signLoop, if_pos (.inl rfl), Option.getD_some]
        simp only [hm, hr, if_neg hr0]
        rw [signLoop, if_neg (fun h => h.elim hr0 (fun h => hs0 (hs.mp h)))]
        simp
      rcases hcases with hc | ⟨x', y', r', s', hm', e1, e2, _, _, hc⟩ | hc
      · exact absurd hc hne
      · exact ⟨_, fun fuel => by rw [hc fuel]⟩
      · exact absurd (hc 2) hok

/-- C72: an input on which `sign` never returns. -/
theorem C72_diverges : ∀ fuel rnd,
    P256.sign fuel (P256.N - P256.G.1.toNat) 1 (some 1) rnd = none := by
  intro fuel rnd
  obtain ⟨G, hG, hNG⟩ := C55_P256.base
  have hx : ((P256.G.1 : ℤ) : ZMod P256.p).val = P256.G.1.toNat := by
    have := val_cast_eq (n := P256.p) (x := P256.G.1) (by decide +kernel) (by decide +kernel)
    omega
  have hd : (shrink P256.N (P256.N - P256.G.1.toNat) + P256.G.1.toNat % P256.N * 1) % P256.N = 0 := by
    decide +kernel
  rcases C72_outcome C55_P256 G hG (P256.N - P256.G.1.toNat) 1 1 rnd with ⟨hd, _⟩ | ⟨x, y, hns, he, hz, _⟩
  · exact absurd hd (by decide +kernel)
  · apply hz
    right
    have hv : x.val = P256.G.1.toNat := by
      rw [← hx]
      generalize P256.G = g at hG
      obtain ⟨gx, gy⟩ := g
      obtain ⟨hns', hG⟩ := hG
      have he := (hG.symm.trans (one_nsmul G).symm).trans he
      rw [Point.some.injEq] at he
      rw [← he.1]
    generalize x.val = v at hv
    subst hv
    exact hd

/-! ### C73: point compression -/

/-- C73: decompression never recovers a point: the second component is always `None`. -/
theorem C73_uncompress (C : NistCurve) (pt : ℤ × ℤ) :
    (C.uncompress (compress pt)).2 = none := rfl

/-- C73: although the compressed form determines the point: two points of the curve with reduced
coordinates and the same compression are equal. -/
theorem C73_injective (hC : SoundCurve C) (hodd : C.p ≠ 2) (x y x' y' : ℤ)
    (h1 : element (some (x, y)) C.a C.b C.p = true) (h2 : element (some (x', y')) C.a C.b C.p = true)
    (hy : 0 ≤ y ∧ y < C.p) (hy' : 0 ≤ y' ∧ y' < C.p)
    (h : compress (x, y) = compress (x', y')) : (x, y) = (x', y') := by
  have : Fact C.p.Prime := ⟨hC.p_prime⟩
  simp only [compress, signBit, Prod.mk.injEq] at h
  obtain ⟨rfl, hs⟩ := h
  have e1 := equation_ecurve.mp ((C49_element x y).mp h1)
  have e2 := equation_ecurve.mp ((C49_element x y').mp h2)
  have e : ((y : ZMod C.p) - y') * (y + y') = 0 := by linear_combination e1 - e2
  have hp2 : (C.p : ℤ) % 2 = 1 := by
    have := hC.p_prime.eq_two_or_odd
    omega
  rw [Int.fmod_eq_emod_of_nonneg _ (by omega), Int.fmod_eq_emod_of_nonneg _ (by omega)] at hs
  rcases mul_eq_zero.mp e with e | e
  · rw [int_eq_of_cast hy.1 hy.2 hy'.1 hy'.2 (sub_eq_zero.mp e)]
  · rw [← Int.cast_add, ZMod.intCast_zmod_eq_zero_iff_dvd] at e
    obtain ⟨t, ht⟩ := e
    have : t = 0 ∨ t = 1 := by
      have ht0 : 0 ≤ t := by
        by_contra hneg
        have : (C.p : ℤ) * t < 0 := mul_neg_of_pos_of_neg (by omega) (by omega)
        omega
      have ht2 : t < 2 := by
        by_contra hge
        have : (C.p : ℤ) * 2 ≤ C.p * t := mul_le_mul_of_nonneg_left (by omega) (by omega)
        omega
      omega
    rcases this with rfl | rfl
    · have : y = 0 ∧ y' = 0 := by omega
      rw [this.1, this.2]
    · omega

/-- C71, C72: an accepted signature exists on P-256, so its twin is accepted too. -/
example : ∃ sig, P256.verify 12345 sig (P256.publicKeyFor 678) = .ok true ∧ sig.length = 64 := by
  have h : ((P256.sign 2 12345 678 (some 9) 0).map fun r =>
      match r with | .ok _ => true | .error _ => false) = some true := by decide +kernel
  cases hs : P256.sign 2 12345 678 (some 9) 0 with
  | none => rw [hs] at h; simp at h
  | some r =>
    cases r with
    | ok sig => exact ⟨sig, C52_roundtrip C55_P256 _ _ _ _ _ _ hs⟩
    | error e => rw [hs] at h; simp at h

end NistCurve
end Verif
