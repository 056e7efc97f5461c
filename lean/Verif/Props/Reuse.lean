import Verif.Props.Predict
/-
C117: two ECDSA signatures made with the same nonce reveal the private number.
-/

namespace Verif
open Spec NistCurve

/-- Two signatures by the same private number with the same random number: they begin with the same number, and if they
differ, the private number follows from the two digests and the two signatures. -/
theorem NistCurve.reused {C : NistCurve} (hC : SoundCurve C) {digest1 digest2 : Bytes} {priv rnd : ℕ} {sig1 sig2 : Bytes}
    {f1 f2 : ℕ}
    (h1 : C.sign f1 (bytesToNat digest1) priv none rnd = some (.ok sig1))
    (h2 : C.sign f2 (bytesToNat digest2) priv none rnd = some (.ok sig2)) :
    sig1.take C.bytes = sig2.take C.bytes ∧
      (sig1 ≠ sig2 → (priv : ZMod C.N) = privateOfTwo C digest1 sig1 digest2 sig2) := by
  have : Fact C.N.Prime := ⟨hC.N_prime⟩
  obtain ⟨x1, y1, r1, s1, m1, e1, a1, b1, l1, c1, k0, r0, -, q1⟩ := sign_equation hC _ _ _ _ _ h1
  obtain ⟨x2, y2, r2, s2, m2, e2, a2, b2, l2, c2, -, -, -, q2⟩ := sign_equation hC _ _ _ _ _ h2
  rw [m1] at m2
  cases m2
  have hr : r1 = r2 := by rw [e1, e2]
  subst hr
  have rlt : r1 < C.N := by rw [e1]; exact (toNat_fmod_cast C.N hC.N_prime.pos x1).2.1
  have lr := longToBytes_length r1 C.bytes hC.bytes_pos (lt_of_lt_of_le rlt hC.N_fits)
  constructor
  · rw [c1, c2]
    unfold int2bytes
    rw [List.take_left' lr, List.take_left' lr]
  · intro hne
    have hs : (s1 : ZMod C.N) - s2 ≠ 0 := by
      rw [sub_ne_zero, Ne, ZMod.natCast_eq_natCast_iff]
      intro hm
      have : s1 = s2 := Nat.ModEq.eq_of_lt_of_lt hm l1 l2
      exact hne (by rw [c1, c2, this])
    unfold privateOfTwo
    simp only [a1, b1, b2]
    have hk : ((rnd % (C.N - 1) + 1 : ℕ) : ZMod C.N) =
        ((shrink C.N (bytesToNat digest1) : ℕ) - (shrink C.N (bytesToNat digest2) : ℕ)) * ((s1 : ZMod C.N) - s2)⁻¹ := by
      rw [eq_mul_inv_iff_mul_eq₀ hs]
      linear_combination q1 - q2
    rw [← hk, eq_mul_inv_iff_mul_eq₀ r0]
    linear_combination -q1

/-- **C117.** Two tokens signed with ES256, ES384 or ES512 by keys with the same private number while the generator
returned the same number: their signatures begin with the same `r`; if the signatures differ at all, `Spec.privateOfTwo`
computes the private number from the two tokens. -/
theorem C117_tokens (E : Env) (rnd : ℕ) {o1 o2 : Jwx} {keys1 keys2 : List Key} (hk1 : keys1 ≠ []) (hk2 : keys2 ≠ [])
    {prot1 prot2 : PyDict} {t1 t2 name : String} {h : HashAlg} (hsup : SupportedAlg name (.es h))
    (hA1 : AlgFor o1 keys1 (.str name)) (hA2 : AlgFor o2 keys2 (.str name))
    (hp1 : (PyVal.dict prot1).jsonable = true) (hp2 : (PyVal.dict prot2).jsonable = true)
    (hkj1 : ∀ k ∈ keys1, k.kid.jsonable = true) (hkj2 : ∀ k ∈ keys2, k.kid.jsonable = true)
    (hty1 : ∀ v, PyDict.get? o1.dict "typ" = some v → v.jsonable = true)
    (hty2 : ∀ v, PyDict.get? o2.dict "typ" = some v → v.jsonable = true)
    (hmsg1 : PartOk o1.msg) (hmsg2 : PartOk o2.msg) {C : NistCurve} (hC : CurveFor h C)
    {i : ℤ} (hpriv : ∀ k ∈ keys1 ++ keys2, ∀ d j, k.getKey true = .ok (.obj (.val d)) → d.asInt? = some j →
      (j : ZMod C.N) = i)
    (hs1 : (o1.signCompact E keys1 prot1 rnd).1 = .ok t1) (hs2 : (o2.signCompact E keys2 prot2 rnd).1 = .ok t2) :
    ∃ a0 a1 ha pa siga b0 b1 hb pb sigb, Token (utf8Encode t1) a0 a1 ha pa siga ∧
      Token (utf8Encode t2) b0 b1 hb pb sigb ∧ siga.take C.bytes = sigb.take C.bytes ∧
      (siga ≠ sigb → (i : ZMod C.N) = privateOfTwo C (E.H.hash h (a0 ++ 46 :: a1)) siga
        (E.H.hash h (b0 ++ 46 :: b1)) sigb) := by
  obtain ⟨k, -, d, m1, -, g1, j, n1, a0, a1, ha, pa, siga, T1, S1⟩ := es_signed E o1 keys1 hk1 prot1 rnd t1 name h hsup
    hA1 hp1 hkj1 hty1 hmsg1 C hC hs1
  obtain ⟨k', -, d', m2, -, g2, j', n2, b0, b1, hb, pb, sigb, T2, S2⟩ := es_signed E o2 keys2 hk2 prot2 rnd t2 name h hsup
    hA2 hp2 hkj2 hty2 hmsg2 C hC hs2
  have hSC := curveFor_sound hC
  have e1 := hpriv k (List.mem_append_left _ m1) d j g1 n1
  have e2 := hpriv k' (List.mem_append_right _ m2) d' j' g2 n2
  obtain ⟨c1, l1, -⟩ := toNat_fmod_cast C.N hSC.N_prime.pos j
  obtain ⟨c2, l2, -⟩ := toNat_fmod_cast C.N hSC.N_prime.pos j'
  have he : (j.fmod C.N).toNat = (j'.fmod C.N).toNat := by
    refine Nat.ModEq.eq_of_lt_of_lt ?_ l1 l2
    rw [← ZMod.natCast_eq_natCast_iff, c1, c2, e1, e2]
  rw [← he] at S2
  obtain ⟨u, v⟩ := NistCurve.reused hSC S1 S2
  refine ⟨a0, a1, ha, pa, siga, b0, b1, hb, pb, sigb, T1, T2, u, fun hne => ?_⟩
  rw [← v hne, c1, e1]

/-! ### Instance -/

theorem exReused_ok : ((({ msg := .str "[]", dict := [("alg", .str "ES256")] } : Jwx).signCompact stdEnv
    [exEsPriv] [] exPredicted).1.toOption.isSome) = true := by
  rw [exPredicted_eq]
  decide +kernel

/-- Two messages signed from the same state of the generator. -/
example (t : String) (ht : (({ msg := .str "[]", dict := [("alg", .str "ES256")] } : Jwx).signCompact stdEnv
    [exEsPriv] [] exPredicted).1 = .ok t) :=
  C117_tokens stdEnv exPredicted (keys1 := [exEsPriv]) (keys2 := [exEsPriv]) (by simp) (by simp)
    (prot1 := []) (prot2 := []) .ES256 (.inl ⟨rfl, rfl⟩) (.inl ⟨rfl, rfl⟩) (by decide) (by decide)
    (by intro k hk; cases List.mem_singleton.mp hk; decide) (by intro k hk; cases List.mem_singleton.mp hk; decide)
    (by intro v hv; cases hv) (by intro v hv; cases hv) (by exact trivial) (by exact trivial)
    (C := P256) (i := 64502400493437371358766275827725703314178640739253280897215993954599262549170) (by show nistCurve 256 = .ok P256; decide +kernel)
    (by
      intro k hk d j h1 h2
      simp only [List.cons_append, List.nil_append, List.mem_cons, List.not_mem_nil, or_false, or_self] at hk
      subst hk
      change Except.ok (KeyArg.obj (.val (.int
        64502400493437371358766275827725703314178640739253280897215993954599262549170))) = _ at h1
      cases h1
      cases h2
      rfl) exPredicted_ok ht

end Verif
