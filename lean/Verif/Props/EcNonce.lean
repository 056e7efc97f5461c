import Verif.Props.EcMore
import Verif.Props.JwsTotal
import Verif.Props.JwsCurve
/-
C100 for ECDSA: for how many nonces signing with ES256, ES384, ES512 does not return
(`/repo/src/jwkest/ecc.py:78-99`, `/repo/src/jwkest/jws.py:173-180`).
-/

namespace Verif
open WeierstrassCurve.Affine Spec

namespace NistCurve
variable {C : NistCurve}

/-- Points with the same first coordinate are equal or opposite. -/
theorem same_x {p : ℕ} [Fact p.Prime] {a b : ℤ} {x x' y y' : ZMod p} (h : (ecurve p a b).Nonsingular x y)
    (h' : (ecurve p a b).Nonsingular x' y') (hx : x = x') :
    Point.some x y h = Point.some x' y' h' ∨ Point.some x y h = -Point.some x' y' h' := by
  subst hx
  have e := (equation_iff x y).mp h.1
  have e' := (equation_iff x y').mp h'.1
  simp only [ecurve] at e e'
  have : (y - y') * (y + y') = 0 := by linear_combination e - e'
  rcases mul_eq_zero.mp this with h0 | h0
  · left
    obtain rfl : y = y' := by linear_combination h0
    rfl
  · right
    rw [Point.neg_some, Point.some.injEq]
    refine ⟨rfl, ?_⟩
    simp only [negY, ecurve]
    linear_combination h0

/-- At most two multiples `k • G` with `0 < k < N` have a given first coordinate. -/
theorem card_same_x (hC : SoundCurve C) [Fact C.p.Prime] (G : (ecurve C.p C.a C.b).Point)
    (hG : Rep (some C.G) G) (t : ℕ) (S : Finset ℕ)
    (hS : ∀ k ∈ S, 0 < k ∧ k < C.N ∧ ∃ (x y : ZMod C.p) (h : (ecurve C.p C.a C.b).Nonsingular x y),
      k • G = .some x y h ∧ x.val = t) : S.card ≤ 2 := by
  have hord := C55_order hC G hG
  rcases S.eq_empty_or_nonempty with rfl | ⟨k0, hk0⟩
  · simp
  · obtain ⟨p0, l0, x0, y0, h0, e0, t0⟩ := hS k0 hk0
    refine le_trans (Finset.card_le_card (t := {k0, C.N - k0}) ?_) Finset.card_le_two
    intro k hk
    obtain ⟨p1, l1, x1, y1, h1, e1, t1⟩ := hS k hk
    have hx : x1 = x0 := ZMod.val_injective _ (t1.trans t0.symm)
    simp only [Finset.mem_insert, Finset.mem_singleton]
    rcases same_x h1 h0 hx with h | h
    · left
      rw [← e1, ← e0] at h
      have := (nsmul_eq_nsmul_iff_modEq).mp h
      rw [hord] at this
      exact Nat.ModEq.eq_of_lt_of_lt this l1 l0
    · right
      rw [← e1, ← e0, eq_neg_iff_add_eq_zero, ← add_nsmul] at h
      have := addOrderOf_dvd_of_nsmul_eq_zero h
      rw [hord] at this
      obtain ⟨q, hq⟩ := this
      have : q = 1 := by
        rcases q with _ | _ | q
        · omega
        · rfl
        · exfalso
          have : C.N * (q + 1 + 1) = C.N * q + C.N + C.N := by ring
          omega
      subst this
      omega

/-- For every hash and every private number that is no multiple of `N`, signing fails to return for at most
eight of the `N - 1` nonces and gives a signature for the others. -/
theorem nonces (hC : SoundCurve C) (hp : C.p < 2 * C.N) (h priv : ℕ) (hd : ¬ C.N ∣ priv) :
    ∃ bad : Finset ℕ, bad.card ≤ 8 ∧ ∀ k rnd, 0 < k → k < C.N →
      (k ∈ bad → ∀ fuel, C.sign fuel h priv (some k) rnd = none) ∧
      (k ∉ bad → ∃ sig, ∀ fuel, C.sign (fuel + 2) h priv (some k) rnd = some (.ok sig)) := by
  have : Fact C.p.Prime := ⟨hC.p_prime⟩
  have : Fact C.N.Prime := ⟨hC.N_prime⟩
  have hN0 := hC.N_prime.pos
  obtain ⟨G, hG, -⟩ := hC.base
  have hd0 : (priv : ZMod C.N) ≠ 0 := by rwa [ne_eq, ZMod.natCast_eq_zero_iff]
  let r0 : ℕ := (-(shrink C.N h : ZMod C.N) / priv).val
  have hr0 : r0 < C.N := ZMod.val_lt _
  classical
  let W : ℕ → Finset ℕ := fun t => (Finset.Ico 1 C.N).filter (fun k =>
    ∃ (x y : ZMod C.p) (hns : (ecurve C.p C.a C.b).Nonsingular x y), k • G = .some x y hns ∧ x.val = t)
  have hW : ∀ t, (W t).card ≤ 2 := by
    intro t
    refine card_same_x hC G hG t _ ?_
    intro k hk
    obtain ⟨h1, h2⟩ := Finset.mem_filter.mp hk
    obtain ⟨h3, h4⟩ := Finset.mem_Ico.mp h1
    exact ⟨h3, h4, h2⟩
  refine ⟨(W 0 ∪ W C.N) ∪ (W r0 ∪ W (r0 + C.N)), ?_, ?_⟩
  · have a1 := Finset.card_union_le (W 0 ∪ W C.N) (W r0 ∪ W (r0 + C.N))
    have a2 := Finset.card_union_le (W 0) (W C.N)
    have a3 := Finset.card_union_le (W r0) (W (r0 + C.N))
    have := hW 0
    have := hW C.N
    have := hW r0
    have := hW (r0 + C.N)
    omega
  · intro k rnd k0 k1
    rcases C72_outcome hC G hG h priv k rnd with ⟨hdv, -⟩ | ⟨x, y, hns, hkG, hbad, hgood⟩
    · exact absurd (Nat.le_of_dvd k0 hdv) (by omega)
    have hxl : x.val < C.p := ZMod.val_lt x
    have hsz : (shrink C.N h + x.val % C.N * priv) % C.N = 0 ↔ x.val % C.N = r0 := by
      rw [← Nat.dvd_iff_mod_eq_zero, ← ZMod.natCast_eq_zero_iff]
      push_cast
      constructor
      · intro hz
        have : ((x.val % C.N : ℕ) : ZMod C.N) = -(shrink C.N h : ZMod C.N) / priv := by
          rw [eq_div_iff hd0]
          linear_combination hz
        have h2 := congrArg ZMod.val this
        rw [ZMod.val_natCast, Nat.mod_mod] at h2
        exact h2
      · intro hz
        have : ((x.val % C.N : ℕ) : ZMod C.N) = -(shrink C.N h : ZMod C.N) / priv := by
          rw [hz]; exact ZMod.natCast_zmod_val _
        rw [this]
        field_simp
        ring
    have hmem : ∀ t, k ∈ W t ↔ x.val = t := by
      intro t
      rw [Finset.mem_filter, Finset.mem_Ico]
      constructor
      · rintro ⟨-, x', y', hns', e', t'⟩
        rw [hkG, Point.some.injEq] at e'
        rw [e'.1, t']
      · intro ht
        exact ⟨⟨k0, k1⟩, x, y, hns, hkG, ht⟩
    have hcl : ∀ r, r < C.N → (x.val % C.N = r ↔ x.val = r ∨ x.val = r + C.N) := by
      intro r hr
      constructor
      · intro e
        have hdm := Nat.div_add_mod x.val C.N
        have hq : x.val / C.N < 2 := by
          rw [Nat.div_lt_iff_lt_mul hN0]; omega
        generalize x.val / C.N = q at hdm hq
        have : q = 0 ∨ q = 1 := by omega
        rcases this with rfl | rfl
        · left; omega
        · right; omega
      · rintro (e | e) <;> rw [e]
        · exact Nat.mod_eq_of_lt hr
        · rw [Nat.add_mod_right, Nat.mod_eq_of_lt hr]
    have hall : k ∈ (W 0 ∪ W C.N) ∪ (W r0 ∪ W (r0 + C.N)) ↔
        x.val % C.N = 0 ∨ (shrink C.N h + x.val % C.N * priv) % C.N = 0 := by
      simp only [Finset.mem_union, hmem]
      rw [hsz, hcl 0 hN0, hcl r0 hr0, Nat.zero_add]
    rw [hall]
    refine ⟨hbad, fun hn => ?_⟩
    rw [not_or] at hn
    exact hgood hn.1 hn.2

theorem sign_none (fuel h priv rnd : ℕ) :
    C.sign fuel h priv none rnd = C.sign fuel h priv (some (rnd % (C.N - 1) + 1)) rnd := by
  unfold sign
  congr 1
  cases fuel with
  | zero => rfl
  | succ f => simp only [signLoop, Option.getD_none, Option.getD_some]

end NistCurve

theorem curveFor_half {h : HashAlg} {C : NistCurve} (hC : CurveFor h C) : C.p < 2 * C.N := by
  have h1 : nistCurve 256 = .ok P256 := by decide +kernel
  have h2 : nistCurve 384 = .ok P384 := by decide +kernel
  have h3 : nistCurve 521 = .ok P521 := by decide +kernel
  cases h <;> simp only [CurveFor, h1, h2, h3, Except.ok.injEq] at hC <;> subst hC <;> decide +kernel

/-- **C100.** A key with an integer private number `d` that is no multiple of `N`, which is the first that fits:
`sign_compact` with ES256, ES384, ES512 returns a token, except for at most eight of the `N - 1` possible nonces,
with which it does not return. -/
theorem C100_ecdsa (E : Env) (o : Jwx) (keys : List Key) (hkne : keys ≠ []) (prot : PyDict)
    (name : String) (h : HashAlg) (hsup : SupportedAlg name (.es h)) (hA : AlgFor o keys (.str name)) (kid : PyVal)
    (hkid : SignKid o kid) (k : Key) (hf : FirstSigner (.es h) name kid keys k)
    (C : NistCurve) (hC : CurveFor h C) (crv x y : PyVal) (d : Int) (c : KObj)
    (hm : k.mat = .ec crv x y (.int d) c) (hd : ¬ (C.N : Int) ∣ d)
    (hself : PyDict.get? prot "self" = none) (hp : (PyVal.dict prot).jsonable = true)
    (hkj : k.kid.jsonable = true) (hty : ∀ v, PyDict.get? o.dict "typ" = some v → v.jsonable = true)
    (hmsg : PartOk o.msg) :
    ∃ bad : Finset ℕ, bad.card ≤ 8 ∧ ∀ rnd,
      (rnd % (C.N - 1) + 1 ∈ bad → (o.signCompact E keys prot rnd).1 = .error .nonTermination) ∧
      (rnd % (C.N - 1) + 1 ∉ bad → ∃ t, (o.signCompact E keys prot rnd).1 = .ok t) := by
  obtain ⟨o1, hdict, hm1, ⟨k', hf', h0⟩ | ⟨hno, -⟩⟩ :=
    algKeys_supported E o keys hkne prot name _ hsup hA kid hkid
  swap
  · obtain ⟨pre, post, rfl, hk, -⟩ := hf
    exact absurd hk (hno k (by simp))
  obtain rfl : k' = k := firstSigner_unique hf' hf
  obtain ⟨hnone, -, -⟩ := supported_alg2keytype hsup
  have hnn : (PyVal.str name) ≠ .str "none" := by intro h; cases h; exact hnone (by decide)
  have hjs := signHeader_jsonable o prot (.str name) (some k') hp rfl (by rintro x ⟨⟩; exact hkj) hty
  have hspec := signHeader_spec o prot (.str name) (some k')
  obtain ⟨b, p, hinit⟩ := jwt_init_ok (signHeader o prot (.str name) (some k'))
    (by rw [hspec.2.2.2 "self" (by decide) (by decide) (by decide)]; exact hself) hjs
    (by rw [hspec.1]; exact algFor_truthy hA)
  obtain ⟨s, hdr, bs, hpk, -⟩ := pack_text ⟨.dict (signHeader o prot (.str name) (some k')), [b], [p]⟩ _ rfl
    (signHeader_ne_nil _ _ _ _) hjs [o.msg] (by simp) (by simpa using hmsg)
  have hd0 : d ≠ 0 := by rintro rfl; exact hd (dvd_zero _)
  have hka : k'.getKey true = .ok (.obj (.val (.int d))) := by
    unfold Key.getKey
    rw [hm]
    simp only [if_true]
    rw [if_pos (by simpa [PyVal.truthy] using hd0)]
  have hSC := curveFor_sound hC
  have hN2 := hSC.N_prime.two_le
  have hes : esCurve h = .ok C := by cases h <;> exact hC
  have hdN : ¬ C.N ∣ (d.fmod C.N).toNat := by
    intro hdv
    apply hd
    have hpos : (0 : Int) < C.N := by omega
    have h1 := Int.fmod_nonneg_of_pos d hpos
    have h2 := Int.fmod_lt_of_pos d hpos
    have h3 : (d.fmod C.N).toNat = 0 := Nat.eq_zero_of_dvd_of_lt hdv (by omega)
    exact Int.dvd_of_fmod_eq_zero (by omega)
  obtain ⟨bad, hcard, hb⟩ := NistCurve.nonces hSC (curveFor_half hC) (bytesToNat (E.H.hash h (utf8Encode s)))
    (d.fmod C.N).toNat hdN
  refine ⟨bad, hcard, fun rnd => ?_⟩
  have hlt : rnd % (C.N - 1) + 1 < C.N := by
    have := Nat.mod_lt rnd (show 0 < C.N - 1 by omega)
    omega
  obtain ⟨hb1, hb2⟩ := hb _ rnd (by omega) hlt
  have hsign : (SigAlg.es h).sign E rnd (utf8Encode s) (.obj (.val (.int d))) =
      match C.sign 2 (bytesToNat (E.H.hash h (utf8Encode s))) (d.fmod C.N).toNat
        (some (rnd % (C.N - 1) + 1)) rnd with
      | some r => r
      | none => .error .nonTermination := by
    simp only [SigAlg.sign, hes, esPriv, PyVal.asInt?, Bind.bind, Except.bind, NistCurve.sign_none]
    rfl
  constructor
  · intro hin
    rw [hb1 hin] at hsign
    unfold Jwx.signCompact
    rw [h0]
    simp only
    rw [hdict "typ" (by decide)]
    erw [hinit]
    simp only [Bind.bind, Except.bind, hnn, if_false, (signerOf_iff (.str name) _).mpr ⟨name, rfl, hsup⟩, hm1, hpk,
      hka, hsign]
  · intro hin
    obtain ⟨sig, hsig⟩ := hb2 hin
    rw [hsig 0] at hsign
    obtain ⟨ss, hss⟩ := utf8Decode_ascii (b64e_ascii sig)
    refine ⟨strJoin [s, ss], ?_⟩
    unfold Jwx.signCompact
    rw [h0]
    simp only
    rw [hdict "typ" (by decide)]
    erw [hinit]
    simp only [Bind.bind, Except.bind, hnn, if_false, (signerOf_iff (.str name) _).mpr ⟨name, rfl, hsup⟩, hm1, hpk,
      hka, hsign, hss.1]

/-- The key of RFC 7515 A.3 signs every text with all nonces but eight. -/
example (m : String) := C100_ecdsa stdEnv { msg := .str m, dict := [("alg", .str "ES256")] } [exEsPriv] (by simp) []
  "ES256" .sha256 .ES256 (.inl ⟨rfl, rfl⟩) .none (.inr ⟨rfl, .inl ⟨rfl, rfl⟩⟩) exEsPriv
  ⟨[], [], rfl, ⟨⟨.inr (.inl rfl), by decide, by decide⟩, by decide⟩, by simp⟩ P256
  (by show nistCurve 256 = .ok P256; decide +kernel) _ _ _ _ _ rfl
  (by decide +kernel) rfl rfl rfl (by intro v h; exact absurd h (by simp [PyDict.get?, List.lookup])) trivial

end Verif
