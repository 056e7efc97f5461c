import Verif.Proofs.JwsSign
import Verif.Props.JwsVerify
/-
C11, C19, C21, C22, C26, C66, C76, C77: signing compact tokens, key selection, header parameters.
-/

namespace Verif
open Spec

/-! ### C19 -/

theorem startsWith_iff (s p : String) : startsWith s p = true ↔ ∃ t, s = p ++ t := by
  unfold startsWith
  rw [List.isPrefixOf_iff_prefix]
  constructor
  · rintro ⟨t, ht⟩
    exact ⟨String.ofList t, by apply String.toList_inj.mp; simp [ht]⟩
  · rintro ⟨t, rfl⟩
    exact ⟨t.toList, by simp⟩

theorem startsWith2_iff (s p q : String) :
    (startsWith s p || startsWith s q) = true ↔ ((∃ t, s = p ++ t) ∨ ∃ t, s = q ++ t) := by
  rw [Bool.or_eq_true, startsWith_iff, startsWith_iff]

theorem wantedKid_of_signKid {o : Jwx} {kid : PyVal} (h : SignKid o kid) : o.wantedKid = .ok kid := by
  unfold Jwx.wantedKid
  rcases h with h | ⟨h, ⟨hj, rfl⟩ | ⟨j, hdr, hj, hh, rfl⟩⟩
  · simp [h]
  · simp [h, hj]
  · simp only [h, hj, hh, PyVal.getItem]
    rcases PyDict.get? hdr "kid" with _ | v <;> simp

theorem ktyMatches_iff {kt lo up : String} (hl : pyLower kt = lo) (hu : pyUpper kt = up) (v : PyVal) :
    ktyMatches kt v = true ↔ Spelled lo up v := by
  subst hl hu
  simp [ktyMatches, Spelled, or_assoc]

theorem family_kt {alg lo up : String} (h : Family alg lo up) :
    alg ≠ "" ∧ alg ≠ "none" ∧ ∃ kt, alg2keytype (.str alg) = .ok (some kt) ∧
      ∀ v, ktyMatches kt v = true ↔ Spelled lo up v := by
  obtain ⟨hn, h⟩ := h
  have hne : alg ≠ "" := by
    have e : ∀ (p t : String), p ≠ "" → p ++ t ≠ "" := by
      intro p t hp h
      have := congrArg String.toList h
      simp only [String.toList_append, String.toList_empty, List.append_eq_nil_iff] at this
      exact hp (String.toList_inj.mp (by simp [this.1]))
    rcases h with ⟨⟨t, rfl⟩ | ⟨t, rfl⟩, -⟩ | ⟨⟨t, rfl⟩ | ⟨t, rfl⟩, -⟩ | ⟨⟨t, rfl⟩ | ⟨t, rfl⟩, -⟩ <;>
      exact e _ _ (by decide)
  refine ⟨hne, by rintro rfl; exact hn (by decide), ?_⟩
  have htr : (PyVal.str alg).truthy = true := by simp [PyVal.truthy, hne]
  unfold alg2keytype
  simp only [htr, Bool.true_eq_false, if_false, hn]
  have nr : ∀ t : String, ¬ ((∃ u, "HS" ++ t = "RS" ++ u) ∨ ∃ u, "HS" ++ t = "PS" ++ u) := by
    rintro t (⟨u, h⟩ | ⟨u, h⟩) <;> (have := congrArg String.toList h; simp at this)
  have nr2 : ∀ t : String, ¬ ((∃ u, "A" ++ t = "RS" ++ u) ∨ ∃ u, "A" ++ t = "PS" ++ u) := by
    rintro t (⟨u, h⟩ | ⟨u, h⟩) <;> (have := congrArg String.toList h; simp at this)
  have ne1 : ∀ p ∈ ["ES", "ECDH-ES"], ∀ t : String,
      ¬ ((∃ u, p ++ t = "RS" ++ u) ∨ ∃ u, p ++ t = "PS" ++ u) := by
    intro p hp t
    simp only [List.mem_cons, List.not_mem_nil, or_false] at hp
    rcases hp with rfl | rfl <;> rintro (⟨u, h⟩ | ⟨u, h⟩) <;>
      (have := congrArg String.toList h; simp at this)
  have ne2 : ∀ p ∈ ["ES", "ECDH-ES"], ∀ t : String,
      ¬ ((∃ u, p ++ t = "HS" ++ u) ∨ ∃ u, p ++ t = "A" ++ u) := by
    intro p hp t
    simp only [List.mem_cons, List.not_mem_nil, or_false] at hp
    rcases hp with rfl | rfl <;> rintro (⟨u, h⟩ | ⟨u, h⟩) <;>
      (have := congrArg String.toList h; simp at this)
  rcases h with ⟨h, rfl, rfl⟩ | ⟨h, rfl, rfl⟩ | ⟨h, rfl, rfl⟩
  · rw [if_pos ((startsWith2_iff _ _ _).mpr h)]
    exact ⟨"RSA", rfl, ktyMatches_iff (by decide) (by decide)⟩
  · rw [if_neg (by rw [startsWith2_iff]; rcases h with ⟨t, rfl⟩ | ⟨t, rfl⟩; exact nr t; exact nr2 t),
      if_pos ((startsWith2_iff _ _ _).mpr h)]
    exact ⟨"oct", rfl, ktyMatches_iff (by decide) (by decide)⟩
  · rw [if_neg (by
        rw [startsWith2_iff]
        rcases h with ⟨t, rfl⟩ | ⟨t, rfl⟩
        · exact ne1 "ES" (by simp) t
        · exact ne1 "ECDH-ES" (by simp) t),
      if_neg (by
        rw [startsWith2_iff]
        rcases h with ⟨t, rfl⟩ | ⟨t, rfl⟩
        · exact ne2 "ES" (by simp) t
        · exact ne2 "ECDH-ES" (by simp) t),
      if_pos ((startsWith2_iff _ _ _).mpr h)]
    exact ⟨"EC", rfl, ktyMatches_iff (by decide) (by decide)⟩

/-- `pick_keys` returns, in order, exactly the keys that pass the documented filter. -/
theorem C19_filter (o : Jwx) (keys : List Key) (use alg lo up : String) (hf : Family alg lo up)
    (arg : PyVal) (harg : arg = .str alg ∨
      (arg.truthy = false ∧ PyDict.get? o.dict "alg" = some (.str alg)))
    (kid : PyVal) (hkid : SignKid o kid) :
    ∃ p : Key → Bool, (∀ k, p k = true ↔ Picked lo up alg use kid k) ∧
      o.pickKeys alg2keytype (keys.map JKey.key) use arg = .ok (keys.filter p) := by
  obtain ⟨hne, hn, kt, hkt, hty⟩ := family_kt hf
  refine ⟨fun k => keyPasses kid use (.str alg) k && ktyMatches kt k.kty, ?_, ?_⟩
  · intro k
    rw [Bool.and_eq_true, hty, keyPasses_iff kid use alg hne]
    unfold Picked
    tauto
  · rw [pickKeys_str o alg kt keys use hne hn hkt arg harg kid (wantedKid_of_signKid hkid),
      List.filter_filter]

/-- For "none", and for names of no known family, no key is picked. -/
theorem C19_none (o : Jwx) (keys : List Key) (use alg : String) (hne : alg ≠ "")
    (h : alg = "none" ∨ (pyLower alg ≠ "none" ∧ ∀ lo up, ¬ Family alg lo up)) :
    o.pickKeys alg2keytype (keys.map JKey.key) use (.str alg) = .ok [] := by
  have htr : (PyVal.str alg).truthy = true := by simp [PyVal.truthy, hne]
  unfold Jwx.pickKeys
  simp only [htr, if_true, Bind.bind, Except.bind]
  rcases h with rfl | ⟨hl, hf⟩
  · simp
  · have hn : alg ≠ "none" := by rintro rfl; exact hl (by decide)
    rw [if_neg (by intro h; cases h; exact hn rfl)]
    have : alg2keytype (.str alg) = .ok none := by
      unfold alg2keytype
      simp only [htr, Bool.true_eq_false, if_false, hl]
      rw [if_neg, if_neg, if_neg]
      · exact fun h => hf "ec" "EC" ⟨hl, .inr (.inr ⟨(startsWith2_iff _ _ _).mp h, rfl, rfl⟩)⟩
      · exact fun h => hf "oct" "OCT" ⟨hl, .inr (.inl ⟨(startsWith2_iff _ _ _).mp h, rfl, rfl⟩)⟩
      · exact fun h => hf "rsa" "RSA" ⟨hl, .inl ⟨(startsWith2_iff _ _ _).mp h, rfl, rfl⟩⟩
    rw [this]

/-- Without an algorithm argument and without one in the object it is a `KeyError`. -/
theorem C19_no_alg (o : Jwx) (keys : List Key) (use : String)
    (h : PyDict.get? o.dict "alg" = none) :
    o.pickKeys alg2keytype (keys.map JKey.key) use (.str "") = .error .keyError := by
  simp [Jwx.pickKeys, PyVal.truthy, PyVal.getItem, h, Bind.bind, Except.bind]

example : Family "HS256" "oct" "OCT" :=
  ⟨by decide, .inr (.inl ⟨.inl ⟨"256", by decide⟩, rfl, rfl⟩)⟩

example : ({} : Jwx).pickKeys alg2keytype ([exKey, { exKey with use := .str "enc" },
    { exKey with kty := .str "OCT", kid := .str "a" }, { exKey with alg := .str "HS512" }].map JKey.key)
    "sig" (.str "HS256") = .ok [exKey, { exKey with kty := .str "OCT", kid := .str "a" }] := by
  decide +kernel

/-! ### C21 -/

/-- When `sign_compact` returns, either no algorithm was determined (or "none" was) and the token
has an empty signature, or the signature was made by the first suitable key with the algorithm
determined. -/
theorem C21_exact (E : Env) (o : Jwx) (keys : List Key) (prot : PyDict) (rnd : Nat) (t : String)
    (h : (o.signCompact E keys prot rnd).1 = .ok t) :
    ∃ alg s0 s1, AlgFor o keys alg ∧
      ((alg = .str "none" ∧ utf8Encode t = s0 ++ 46 :: s1 ++ [46]) ∨
       ∃ name a k l kid ka sig, alg = .str name ∧ SupportedAlg name a ∧
        EffKeys o keys l ∧ SignKid o kid ∧ FirstSigner a name kid l k ∧
        k.getKey true = .ok ka ∧ a.sign E rnd (s0 ++ 46 :: s1) ka = .ok sig ∧
        utf8Encode t = s0 ++ 46 :: s1 ++ 46 :: b64e sig) := by
  obtain ⟨alg, key, s0, s1, h1, -, -, ⟨h2, -, h3⟩ | ⟨name, a, k, l, kid, ka, sig, h2, h3, -, h4⟩⟩ :=
    signCompact_ok h
  · exact ⟨alg, s0, s1, h1, .inl ⟨h2, h3⟩⟩
  · exact ⟨alg, s0, s1, h1, .inr ⟨name, a, k, l, kid, ka, sig, h2, h3, h4⟩⟩

/-- If the object has a supported algorithm, the signature is never dropped. -/
theorem C21_signed (E : Env) (o : Jwx) (keys : List Key) (prot : PyDict) (rnd : Nat) (t name : String)
    (a : SigAlg) (hsup : SupportedAlg name a) (ho : PyDict.get? o.dict "alg" = some (.str name))
    (h : (o.signCompact E keys prot rnd).1 = .ok t) :
    ∃ k l kid ka sig s0 s1, EffKeys o keys l ∧ SignKid o kid ∧ FirstSigner a name kid l k ∧
      k.getKey true = .ok ka ∧ a.sign E rnd (s0 ++ 46 :: s1) ka = .ok sig ∧
      utf8Encode t = s0 ++ 46 :: s1 ++ 46 :: b64e sig := by
  obtain ⟨hnone, hne, -⟩ := supported_alg2keytype hsup
  obtain ⟨alg, s0, s1, hA, h⟩ := C21_exact E o keys prot rnd t h
  have halg : alg = .str name := by
    rcases hA with ⟨h, -⟩ | ⟨h, -⟩ | ⟨⟨v, h, hf⟩ | ⟨h, -⟩, -⟩
    · rw [ho] at h; exact (Option.some.inj h).symm
    · rw [ho] at h; simp at h
    · rw [ho] at h
      obtain rfl := Option.some.inj h
      simp [PyVal.truthy, hne] at hf
    · rw [ho] at h; simp at h
  rcases h with ⟨rfl, -⟩ | ⟨name', a', k, l, kid, ka, sig, rfl, hsup', h⟩
  · cases halg; exact absurd (by decide) hnone
  · cases halg
    have h1 := (signerOf_iff (.str name) a).mpr ⟨name, rfl, hsup⟩
    have h2 := (signerOf_iff (.str name) a').mpr ⟨name, rfl, hsup'⟩
    rw [h1] at h2
    obtain rfl : a = a' := by simpa using h2
    exact ⟨k, l, kid, ka, sig, s0, s1, h⟩

theorem jwt_init_ok (x : PyDict) (hs : PyDict.get? x "self" = none)
    (hj : (PyVal.dict x).jsonable = true) (ha : ((PyDict.get? x "alg").getD .none).truthy = true) :
    ∃ b p, Jwt.init x = .ok ⟨.dict x, [b], [p]⟩ := by
  obtain ⟨b, hb, -⟩ := b64encodeItem_ok (.dict x) hj
  refine ⟨b64e b, b, ?_⟩
  have hs' : PyDict.has x "self" = false := by simp [PyDict.has, hs]
  simp only [Jwt.init, hs', Bool.false_eq_true, if_false, Bind.bind, Except.bind]
  simp only [ha, if_true, hb, C01_roundtrip]

/-- The violation: `JWS(msg).sign_compact(keys)` with any number of keys other than one, whatever
algorithms they carry, produces an unsigned token. -/
theorem C21_silently_unsigned (E : Env) (msg : PyVal) (hm : PartOk msg) (keys : List Key)
    (hl : keys.length ≠ 1) (hne : keys ≠ []) (rnd : Nat) :
    ∃ t s0 s1, (({ msg } : Jwx).signCompact E keys [] rnd).1 = .ok t ∧
      utf8Encode t = s0 ++ 46 :: s1 ++ [46] := by
  obtain ⟨b, p, hinit⟩ := jwt_init_ok [("alg", .str "none")] (by decide) (by decide) (by decide)
  obtain ⟨s, hdr, bs, hp, -, -, -, -, -⟩ := pack_text ⟨.dict [("alg", .str "none")], [b], [p]⟩ _ rfl
    (by simp) (by decide) [msg, .str ""] (by simp) (by
      intro x hx
      simp only [List.mem_cons, List.not_mem_nil, or_false] at hx
      rcases hx with rfl | rfl
      · exact hm
      · trivial)
  have hpa : ({ msg } : Jwx).pickAlg keys =
      (.str "none", ({ msg, dict := [("alg", .str "none")] } : Jwx)) := by
    rcases keys with _ | ⟨k, _ | ⟨k', l⟩⟩
    · exact absurd rfl hne
    · simp at hl
    · simp [Jwx.pickAlg, PyDict.get?, none_truthy, PyDict.set]
  have hsrc : ({ msg, dict := [("alg", .str "none")] } : Jwx).keySource E keys =
      .ok (keys.map JKey.key) := by simp [Jwx.keySource, hne]
  have htr : (PyVal.str "none").truthy = true := by decide
  have hpk : ({ msg, dict := [("alg", .str "none")] } : Jwx).pickKeys alg2keytype
      (keys.map JKey.key) "sig" (.str "none") = .ok [] := C19_none _ _ _ _ (by decide) (.inl rfl)
  have hin : isNoneAlg (.str "none") = .ok true := by decide
  have hok : (({ msg } : Jwx).signCompact E keys [] rnd).1 = .ok s := by
    unfold Jwx.signCompact Jwx.algKeys
    simp only [hpa, hsrc, hpk, hin, Bind.bind, Except.bind, if_true, PyDict.set]
    simp only [PyDict.get?, List.lookup_cons, List.lookup_nil,
      show ("typ" == "alg") = false by decide, hinit]
    exact hp
  obtain ⟨alg, s0, s1, hA, ⟨-, ht⟩ | ⟨name, a, -, -, -, -, -, rfl, hsup, -⟩⟩ :=
    C21_exact E _ keys [] rnd s hok
  · exact ⟨s, s0, s1, hok, ht⟩
  · exfalso
    rcases hA with ⟨h, -⟩ | ⟨-, k, rfl, -⟩ | ⟨-, h⟩
    · simp [PyDict.get?] at h
    · simp at hl
    · cases h
      exact (supported_alg2keytype hsup).1 (by decide)

/-- Two keys, both marked for HS256: the token is unsigned. -/
example : (({ msg := .dict [] } : Jwx).signCompact toyEnv
    [{ exKey with alg := .str "HS256" }, { exKey with alg := .str "HS256" }] [] 0).1 =
    .ok "eyJhbGciOiJub25lIn0.e30." := by decide +kernel

example : (({ msg := .dict [], dict := [("alg", .str "HS256")] } : Jwx).signCompact toyEnv
    [exKey] [] 0).1 = .ok "eyJhbGciOiJIUzI1NiJ9.e30.a2V5SmhiR2NpT2lKSVV6STFOaUo5LmUzMAAAAAAAAAA" := by
  decide +kernel

/-! ### C22 -/

/-- The first segment of a returned token decodes to the protected members given, plus the
algorithm used, the signing key's `kid` if it has one and the object's `typ` if it has one. -/
theorem C22_header (E : Env) (o : Jwx) (keys : List Key) (prot : PyDict) (rnd : Nat) (t : String)
    (hp : (PyVal.dict prot).jsonable = true) (ha : ∀ alg, AlgFor o keys alg → alg.jsonable = true)
    (hk : ∀ l, EffKeys o keys l → ∀ k ∈ l, k.kid.jsonable = true)
    (ht : ∀ v, PyDict.get? o.dict "typ" = some v → v.jsonable = true)
    (h : (o.signCompact E keys prot rnd).1 = .ok t) :
    ∃ alg s0 s1 s2 hb hs hdr key, AlgFor o keys alg ∧ utf8Encode t = s0 ++ 46 :: s1 ++ 46 :: s2 ∧
      (46 : UInt8) ∉ s0 ∧ b64d s0 = .ok hb ∧ utf8Decode hb = .ok hs ∧
      jsonLoads hs = .ok (.dict hdr) ∧ SignedHeader o prot alg key hdr ∧
      ((key = none ∧ alg = .str "none") ∨ ∃ name a k l kid, key = some k ∧ alg = .str name ∧
        SupportedAlg name a ∧ EffKeys o keys l ∧ SignKid o kid ∧ FirstSigner a name kid l k) := by
  obtain ⟨alg, key, s0, s1, hA, h0, h1, hc⟩ := signCompact_ok h
  have hkj : ∀ x, key = some x → x.kid.jsonable = true := by
    rintro x rfl
    rcases hc with ⟨-, h, -⟩ | ⟨name, a, k, l, kid, ka, sig, -, -, hx, hl, -, ⟨pre, post, rfl, -⟩, -⟩
    · simp at h
    · cases hx; exact hk _ hl x (by simp)
  have hj := signHeader_jsonable o prot alg key hp (ha alg hA) hkj ht
  obtain ⟨b, hb, hs, rfl, hlo⟩ := b64encodeItem_ok (.dict (signHeader o prot alg key)) hj
  rw [hb] at h0
  obtain rfl := Except.ok.inj h0
  rcases hc with ⟨h2, h3, h4⟩ | ⟨name, a, k, l, kid, ka, sig, h2, h3, h4, h5, h6, h7, -, -, h8⟩
  · exact ⟨alg, _, s1, [], _, hs, _, key, hA, h4, b64e_no_dot _, C01_roundtrip _,
      utf8Decode_encode _, hlo, signHeader_spec o prot alg key, .inl ⟨h3, h2⟩⟩
  · exact ⟨alg, _, s1, _, _, hs, _, key, hA, h8, b64e_no_dot _, C01_roundtrip _,
      utf8Decode_encode _, hlo, signHeader_spec o prot alg key,
      .inr ⟨name, a, k, l, kid, h4, h2, h3, h5, h6, h7⟩⟩

example : (({ msg := .dict [], dict := [("alg", .str "HS256"), ("typ", .str "JWT")] } : Jwx).signCompact
    toyEnv [{ exKey with kid := .str "1" }] [("cty", .str "x")] 0).1.map
      (fun t => (Jwt.unpack (utf8Encode t)).map Jwt.headers) =
    .ok (.ok (.dict [("cty", .str "x"), ("alg", .str "HS256"), ("kid", .str "1"), ("typ", .str "JWT")]))
    := by decide +kernel

/-! ### C11 -/

theorem algFor_unique {o : Jwx} {keys : List Key} {x y : PyVal} (hx : AlgFor o keys x) (hy : AlgFor o keys y) :
    x = y := by
  rcases hx with ⟨h, h'⟩ | ⟨h, k, rfl, h', rfl⟩ | ⟨⟨v, h, h'⟩ | ⟨h, h'⟩, rfl⟩ <;>
  rcases hy with ⟨g, g'⟩ | ⟨g, k2, g2, g', rfl⟩ | ⟨⟨v', g, g'⟩ | ⟨g, g'⟩, rfl⟩ <;>
    simp_all

/-- What a signed token consists of. -/
theorem sign_parts (E : Env) (o : Jwx) (keys : List Key) (hkne : keys ≠ [])
    (prot : PyDict) (rnd : Nat) (t name : String) (a : SigAlg) (hsup : SupportedAlg name a)
    (hA : AlgFor o keys (.str name)) (hp : (PyVal.dict prot).jsonable = true)
    (hkj : ∀ k ∈ keys, k.kid.jsonable = true)
    (hty : ∀ v, PyDict.get? o.dict "typ" = some v → v.jsonable = true)
    (hmsg : PartOk o.msg)
    (h : (o.signCompact E keys prot rnd).1 = .ok t) :
    ∃ k kid ka hdr p sig s0, k ∈ keys ∧ SignSuitable a name kid k ∧
      Token (utf8Encode t) s0 (b64e p) (.dict hdr) p sig ∧
      SignedHeader o prot (.str name) (some k) hdr ∧ PartBytes o.msg p ∧
      b64encodeItem o.msg = .ok (b64e p) ∧ k.getKey true = .ok ka ∧
      a.sign E rnd (s0 ++ 46 :: b64e p) ka = .ok sig := by
  obtain ⟨hnone, hne, -⟩ := supported_alg2keytype hsup
  obtain ⟨alg, key, s0, s1, hA', h0, h1, hc⟩ := signCompact_ok h
  have halg : alg = .str name := algFor_unique hA' hA
  subst halg
  rcases hc with ⟨h2, -, -⟩ | ⟨name', a', k, l, kid, ka, sig, h2, h3, rfl, hl, hkid, hfs, hka, hsig, h8⟩
  · cases h2; exact absurd (by decide) hnone
  cases h2
  have haa : a' = a := by
    have e1 := (signerOf_iff (.str name) a).mpr ⟨name, rfl, hsup⟩
    have e2 := (signerOf_iff (.str name) a').mpr ⟨name, rfl, h3⟩
    rw [e1] at e2
    simpa using e2.symm
  subst haa
  obtain rfl : l = keys := by
    rcases hl with ⟨-, h⟩ | ⟨h, -⟩
    · exact h
    · exact absurd h hkne
  obtain ⟨pre, post, hlk, hss, -⟩ := hfs
  have hkm : k ∈ l := by rw [hlk]; simp
  -- the header
  have hj := signHeader_jsonable o prot (.str name) (some k) hp rfl
    (by rintro x hx; cases hx; exact hkj _ hkm) hty
  have hspec := signHeader_spec o prot (.str name) (some k)
  obtain ⟨b, hb, hs, rfl, hlo⟩ := b64encodeItem_ok (.dict (signHeader o prot (.str name) (some k))) hj
  rw [hb] at h0
  obtain rfl := Except.ok.inj h0
  obtain ⟨p, hpb, hPB⟩ := b64encodeItem_ok o.msg hmsg
  rw [hpb] at h1
  obtain rfl := Except.ok.inj h1
  set hdr := signHeader o prot (.str name) (some k) with hhdr
  have htok : Token (utf8Encode t) (b64e (utf8Encode hs)) (b64e p) (.dict hdr) p sig :=
    ⟨⟨b64e sig, h8, C01_roundtrip _, b64e_no_dot _⟩, ⟨b64e_no_dot _, b64e_no_dot _⟩,
      ⟨utf8Encode hs, hs, C01_roundtrip _, utf8Decode_encode _, hlo⟩, C01_roundtrip _⟩
  exact ⟨k, kid, ka, hdr, p, sig, _, hkm, hss, htok, hspec, hPB, hpb, hka, hsig⟩

/-- What a signed token consists of, and that the signing key accepts it. -/
theorem sign_core (E : Env) (hR : E.R.Lawful) (o : Jwx) (keys : List Key) (hkne : keys ≠ [])
    (prot : PyDict) (rnd : Nat) (t name : String) (a : SigAlg) (hsup : SupportedAlg name a)
    (hA : AlgFor o keys (.str name)) (hp : (PyVal.dict prot).jsonable = true)
    (hkj : ∀ k ∈ keys, k.kid.jsonable = true)
    (hty : ∀ v, PyDict.get? o.dict "typ" = some v → v.jsonable = true)
    (hmsg : PartOk o.msg)
    (hown : ∀ kid, ∀ k ∈ keys, SignSuitable a name kid k → OwnKey k a)
    (h : (o.signCompact E keys prot rnd).1 = .ok t) :
    ∃ k kid hdr p sig s0, k ∈ keys ∧ SignSuitable a name kid k ∧
      Token (utf8Encode t) s0 (b64e p) (.dict hdr) p sig ∧
      SignedHeader o prot (.str name) (some k) hdr ∧ PartBytes o.msg p ∧
      b64encodeItem o.msg = .ok (b64e p) ∧ Accepts E k (s0 ++ 46 :: b64e p) sig a := by
  obtain ⟨k, kid, ka, hdr, p, sig, s0, hkm, hss, htok, hspec, hPB, hpb, hka, hsig⟩ := sign_parts E o keys
    hkne prot rnd t name a hsup hA hp hkj hty hmsg h
  exact ⟨k, kid, hdr, p, sig, s0, hkm, hss, htok, hspec, hPB, hpb,
    sign_accepts hR (hown kid k hkm hss) hka hsig⟩

/-- Round trip: what `sign_compact` returns, `verify_compact` on a fresh object accepts with the same
keys, and gives the payload interpretation of the message. -/
theorem C11_roundtrip (E : Env) (hR : E.R.Lawful) (o : Jwx) (keys : List Key) (hkne : keys ≠ [])
    (prot : PyDict) (rnd : Nat) (t name : String) (a : SigAlg) (hsup : SupportedAlg name a)
    (hA : AlgFor o keys (.str name)) (hp : (PyVal.dict prot).jsonable = true)
    (hkj : ∀ k ∈ keys, k.kid.jsonable = true ∧ k.kid.pyEq k.kid = true)
    (hty : ∀ v, PyDict.get? o.dict "typ" = some v → v.jsonable = true)
    -- a `kid` among the protected members is only overwritten by a key that has one
    (hpk : ∀ k ∈ keys, k.kid.truthy = true ∨ ((PyDict.get? prot "kid").getD .none).truthy = false)
    (hcty : PyDict.get? prot "cty" = none ∨ ∃ c, PyDict.get? prot "cty" = some (.str c))
    (hmsg : PartOk o.msg) (hjb : JsonBytesLawful E.jsonBytes)
    -- every key that may sign has a matching public half
    (hown : ∀ kid, ∀ k ∈ keys, SignSuitable a name kid k → OwnKey k a)
    -- the other keys that may be tried do not raise unexpected exceptions
    (hsoft : ∀ kid input sig, ∀ k ∈ keys, Suitable a name kid k → ¬ Accepts E k input sig a →
      SoftFail E a input sig k)
    (h : (o.signCompact E keys prot rnd).1 = .ok t) (an : Bool) (sigalg : PyVal)
    (hsa : sigalg.truthy = true → sigalg = .str name) :
    ∃ m k hdr p key, (({} : Jwx).verifyVerbose E (utf8Encode t) keys an sigalg).1 = .ok (m, some k) ∧
      SignedHeader o prot (.str name) (some key) hdr ∧ PartBytes o.msg p ∧
      Message E.jsonBytes hdr p m := by
  obtain ⟨k, kid, hdr, p, sig, s0, hkm, hss, htok, hspec, hPB, -, hacc⟩ := sign_core E hR o keys hkne
    prot rnd t name a hsup hA hp (fun k hk => (hkj k hk).1) hty hmsg hown h
  -- the message
  have hcty' : PyDict.get? hdr "cty" = none ∨ ∃ c, PyDict.get? hdr "cty" = some (.str c) := by
    rw [hspec.2.2.2 "cty" (by decide) (by decide) (by decide)]; exact hcty
  obtain ⟨s2, hb2, hun⟩ := unpack_of_token htok
  obtain ⟨m, hm⟩ := C10_total E.jsonBytes hjb _ _ hun hdr rfl hcty'
  have hM : Message E.jsonBytes hdr p m := (message_iff E.jsonBytes _ hdr p m rfl rfl).mp hm
  -- the key
  obtain ⟨wk, hwk⟩ := wantedKid_exists [] hdr
  have hsuit : Suitable a name wk k := by
    refine ⟨hss.1.1, ?_, hss.1.2.2⟩
    intro hwt
    have hk2 := hspec.2.1
    simp only at hk2
    have hw : PyDict.get? hdr "kid" = some wk := by
      rcases hwk with h | ⟨-, h⟩ | ⟨-, -, rfl⟩
      · simp [PyDict.get?] at h
      · exact h
      · simp [none_truthy] at hwt
    rw [hw] at hk2
    split at hk2
    · rename_i hkt
      obtain rfl := Option.some.inj hk2
      exact (hkj k hkm).2
    · rename_i hkt
      exfalso
      rcases hpk k hkm with h | h
      · exact hkt h
      · rw [← hk2] at h
        simp only [Option.getD_some] at h
        rw [hwt] at h
        simp at h
  obtain ⟨k', hk'⟩ := (C20_some_key E {} (utf8Encode t) keys hkne an sigalg m _ _ hdr p sig name a wk
    htok hspec.1 hsup (by simp [PyDict.get?]) hsa hwk hM (hsoft wk _ _)).mpr ⟨k, hkm, hsuit, hacc⟩
  exact ⟨m, k', hdr, p, k, hk', hspec, hPB, hM⟩

/-- For a message that is a JSON object or list and no `cty`, the message itself comes back. -/
theorem C11_json_message (jb : Bytes → PyM PyVal) (hdr : PyDict) (p : Bytes) (msg m : PyVal)
    (hmsg : (∃ d, msg = .dict d) ∨ ∃ l, msg = .list l) (hP : PartBytes msg p)
    (hc : PyDict.get? hdr "cty" = none) (hM : Message jb hdr p m) : m = msg := by
  obtain ⟨s, rfl, hs⟩ : ∃ s, p = utf8Encode s ∧ jsonLoads s = .ok msg := by
    rcases hmsg with ⟨d, rfl⟩ | ⟨l, rfl⟩ <;> exact hP
  have : Message jb hdr (utf8Encode s) msg :=
    ⟨.str s, .inl ⟨s, rfl, rfl⟩, .inr ⟨.inl hc, .inl (.inl ⟨s, rfl, hs⟩)⟩⟩
  exact message_unique hM this

/-- A text message that is not JSON comes back as that text. -/
theorem C11_text_message (jb : Bytes → PyM PyVal) (hdr : PyDict) (s : String) (m : PyVal)
    (hn : ∀ v, jsonLoads s ≠ .ok v) (hM : Message jb hdr (utf8Encode s) m) : m = .str s := by
  obtain ⟨t, ht, h⟩ := hM
  have : t = .str s := by
    rw [asText_iff] at ht
    rw [ht, asUnicode_encode]
  subst this
  rcases h with ⟨-, h⟩ | ⟨-, h | ⟨e, -, -, h⟩⟩
  · exact h
  · rcases h with ⟨s', hs, h⟩ | ⟨b, hb, -⟩
    · cases hs; exact absurd h (hn m)
    · simp at hb
  · exact h

/-- Two HMAC keys, message and algorithm. -/
example : ∃ m k, (({} : Jwx).verifyVerbose toyEnv
    (ascii "eyJhbGciOiJIUzI1NiJ9.e30.a2V5SmhiR2NpT2lKSVV6STFOaUo5LmUzMAAAAAAAAAA")
    [exKey, { exKey with key := .val (.bytes [1]) }] false .none).1 = .ok (m, some k) ∧
    m = .dict [] := by
  have hsuit : ∀ k ∈ [exKey, { exKey with key := .val (.bytes [1]) }],
      ¬ IsEc k ∧ ∃ s, k.key = .val (.bytes s) := by
    intro k hk
    simp only [List.mem_cons, List.not_mem_nil, or_false] at hk
    rcases hk with rfl | rfl
    · exact ⟨by rintro ⟨_, _, _, _, _, h⟩; simp [exKey] at h, _, rfl⟩
    · exact ⟨by rintro ⟨_, _, _, _, _, h⟩; simp [exKey] at h, _, rfl⟩
  obtain ⟨m, k, hdr, p, key, h, hH, hP, hM⟩ := C11_roundtrip toyEnv toyRsa_lawful
    { msg := .dict [], dict := [("alg", .str "HS256")] }
    [exKey, { exKey with key := .val (.bytes [1]) }] (by simp) [] 0
    "eyJhbGciOiJIUzI1NiJ9.e30.a2V5SmhiR2NpT2lKSVV6STFOaUo5LmUzMAAAAAAAAAA" "HS256" (.hs .sha256)
    .HS256 (.inl ⟨rfl, rfl⟩) rfl
    (by intro k hk; simp only [List.mem_cons, List.not_mem_nil, or_false] at hk
        rcases hk with rfl | rfl <;> exact ⟨rfl, rfl⟩)
    (by intro v h; exact absurd h (by simp [PyDict.get?, List.lookup])) (by intro k _; right; rfl) (.inl rfl) rfl
    (by intro b e h; cases h; rfl)
    (fun kid k hk _ => (hsuit k hk).1)
    (fun kid input sig k hk _ hn => by
      obtain ⟨h1, s, h2⟩ := hsuit k hk
      exact softFail_hmac _ _ _ _ _ h1 s h2 hn)
    (by decide +kernel) false .none (by simp [none_truthy])
  refine ⟨m, k, h, ?_⟩
  refine C11_json_message _ hdr p _ m (.inl ⟨[], rfl⟩) hP ?_ hM
  rw [hH.2.2.2 "cty" (by decide) (by decide) (by decide)]
  rfl

end Verif
