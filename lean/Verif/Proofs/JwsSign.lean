import Verif.Proofs.JwsVerify
import Verif.Props.Curves
/-
What `sign_compact` returns, in the terms of `Spec/Jws`.
-/

namespace Verif
open Spec

theorem none_truthy : PyVal.none.truthy = false := rfl

theorem pickAlg_spec (o : Jwx) (keys : List Key) : AlgFor o keys (o.pickAlg keys).1 := by
  unfold Jwx.pickAlg AlgFor
  rcases ha : PyDict.get? o.dict "alg" with _ | v
  · simp only [reduceCtorEq, false_and, exists_false, false_or, true_and]
    rcases keys with _ | ⟨k, _ | ⟨k', l⟩⟩
    · simp [none_truthy]
    · by_cases hk : k.alg.truthy = true
      · simp [hk]
      · simp [hk, none_truthy]
    · simp [none_truthy]
  · by_cases hv : v.truthy = true
    · simp [hv]
    · simp only [hv, Bool.false_eq_true, if_false]
      right; right
      exact ⟨.inl ⟨v, by simp, by simpa using hv⟩, trivial⟩

theorem pickAlg_state (o : Jwx) (keys : List Key) :
    (o.pickAlg keys).2.msg = o.msg ∧ (o.pickAlg keys).2.jwk = o.jwk ∧
    (o.pickAlg keys).2.jwt = o.jwt ∧
    ∀ n, n ≠ "alg" → PyDict.get? (o.pickAlg keys).2.dict n = PyDict.get? o.dict n := by
  unfold Jwx.pickAlg
  have hs : ∀ (d : PyDict) v n, n ≠ "alg" → PyDict.get? (PyDict.set d "alg" v) n = PyDict.get? d n := by
    intro d v n hn; rw [PyDict.get?_set]; simp [hn]
  rcases ha : PyDict.get? o.dict "alg" with _ | v
  · rcases keys with _ | ⟨k, _ | ⟨k', l⟩⟩
    · simp only [none_truthy, Bool.false_eq_true, if_false, true_and]
      exact fun n hn => hs _ _ n hn
    · by_cases hk : k.alg.truthy = true
      · simp only [hk, if_true, true_and]
        exact fun n hn => hs _ _ n hn
      · simp only [hk, Bool.false_eq_true, if_false, none_truthy, true_and]
        exact fun n hn => hs _ _ n hn
    · simp only [none_truthy, Bool.false_eq_true, if_false, true_and]
      exact fun n hn => hs _ _ n hn
  · simp only
    split
    · simp
    · simp only [true_and]
      exact fun n hn => hs _ _ n hn

theorem signKid_of {o : Jwx} {kid : PyVal} (h : o.wantedKid = .ok kid) : SignKid o kid := by
  unfold Jwx.wantedKid at h
  unfold SignKid
  rcases hk : PyDict.get? o.dict "kid" with _ | v
  · simp only [hk] at h
    right
    refine ⟨rfl, ?_⟩
    rcases hj : o.jwt with _ | j
    · simp only [hj, Except.ok.injEq] at h; exact .inl ⟨rfl, h.symm⟩
    · right
      simp only [hj, PyVal.getItem] at h
      rcases hh : j.headers with _ | _ | _ | _ | _ | _ | _ | hdr <;> simp only [hh] at h
      case dict =>
        refine ⟨j, hdr, rfl, hh, ?_⟩
        rcases hg : PyDict.get? hdr "kid" with _ | v <;> simp [hg] at h <;> simp [h]
      all_goals simp at h
  · simp only [hk, Except.ok.injEq] at h
    exact .inl (by rw [h])

theorem mapM_decode_encode {l : List Bytes} {m : List String} (h : l.mapM utf8Decode = .ok m) :
    m.map utf8Encode = l := by
  have := mapM_forall₂.mp h
  clear h
  induction this with
  | nil => rfl
  | cons hd _ ih => simp [ih, utf8Encode_of_decode hd]

/-- The curves of the ECDSA signers are sound. -/
theorem curveFor_sound {h : HashAlg} {C : NistCurve} (hC : CurveFor h C) : SoundCurve C := by
  have h1 : nistCurve 256 = .ok P256 := by decide +kernel
  have h2 : nistCurve 384 = .ok P384 := by decide +kernel
  have h3 : nistCurve 521 = .ok P521 := by decide +kernel
  cases h <;> simp only [CurveFor, h1, h2, h3, Except.ok.injEq] at hC <;> subst hC
  · exact C55_P256
  · exact C55_P256
  · exact C55_P384
  · exact C55_P521

theorem pack_ok {j : Jwt} {h : PyDict} (hj : j.headers = .dict h) (hne : h ≠ []) {ps : List PyVal}
    (hps : ps ≠ []) {s : String} (hs : j.pack ps = .ok s) :
    ∃ bh bs, b64encodeItem (.dict h) = .ok bh ∧ ps.mapM b64encodeItem = .ok bs ∧
      utf8Encode s = joinDot (bh :: bs) := by
  unfold Jwt.pack at hs
  have ht : (PyVal.dict h).truthy = true := by
    cases h with
    | nil => exact absurd rfl hne
    | cons a l => rfl
  have hpe : ps.isEmpty = false := by simpa using hps
  simp only [hj, ht, if_true, hpe, Bool.false_eq_true, if_false, Bind.bind] at hs
  obtain ⟨bh, h1, hs⟩ := bind_ok_iff.mp hs
  obtain ⟨bs, h2, hs⟩ := bind_ok_iff.mp hs
  obtain ⟨l, h3, hs⟩ := bind_ok_iff.mp hs
  refine ⟨bh, bs, h1, h2, ?_⟩
  obtain rfl := Except.ok.inj hs
  rw [utf8Encode_strJoin, mapM_decode_encode h3]

/-- `b64encode_item` of anything is base64 of something. -/
theorem b64encodeItem_b64e {v : PyVal} {b : Bytes} (h : b64encodeItem v = .ok b) : ∃ x, b = b64e x := by
  unfold b64encodeItem at h
  split at h
  · exact ⟨_, (Except.ok.inj h).symm⟩
  · exact ⟨_, (Except.ok.inj h).symm⟩
  · simp at h
  · simp at h
  · simp only [Bind.bind] at h
    obtain ⟨_, -, h⟩ := bind_ok_iff.mp h
    obtain ⟨_, -, h⟩ := bind_ok_iff.mp h
    exact ⟨_, (Except.ok.inj h).symm⟩

/-- The header `sign_compact` builds. -/
def signHeader (o : Jwx) (prot : PyDict) (alg : PyVal) (k : Option Key) : PyDict :=
  let x := PyDict.set prot "alg" alg
  let x := match k with
    | some k => if k.kid.truthy then PyDict.set x "kid" k.kid else x
    | none => x
  match PyDict.get? o.dict "typ" with
  | some t => PyDict.set x "typ" t
  | none => x

theorem signHeader_spec (o : Jwx) (prot : PyDict) (alg : PyVal) (k : Option Key) :
    SignedHeader o prot alg k (signHeader o prot alg k) := by
  unfold SignedHeader signHeader
  rcases PyDict.get? o.dict "typ" with _ | t <;> rcases k with _ | k
  · simp +contextual [PyDict.get?_set]
  · by_cases hk : k.kid.truthy = true <;> simp +contextual [PyDict.get?_set, hk]
  · simp +contextual [PyDict.get?_set]
  · by_cases hk : k.kid.truthy = true <;> simp +contextual [PyDict.get?_set, hk]

theorem signHeader_ne_nil (o : Jwx) (prot : PyDict) (alg : PyVal) (k : Option Key) :
    signHeader o prot alg k ≠ [] := by
  intro h
  have := (signHeader_spec o prot alg k).1
  rw [h] at this
  simp [PyDict.get?] at this

theorem signHeader_jsonable (o : Jwx) (prot : PyDict) (alg : PyVal) (k : Option Key)
    (hp : (PyVal.dict prot).jsonable = true) (ha : alg.jsonable = true)
    (hk : ∀ x, k = some x → x.kid.jsonable = true)
    (ht : ∀ t, PyDict.get? o.dict "typ" = some t → t.jsonable = true) :
    (PyVal.dict (signHeader o prot alg k)).jsonable = true := by
  unfold signHeader
  have h1 := jsonable_set prot "alg" alg hp ha
  rcases hty : PyDict.get? o.dict "typ" with _ | t <;> rcases k with _ | k <;> simp only
  · exact h1
  · split
    · exact jsonable_set _ _ _ h1 (hk k rfl)
    · exact h1
  · exact jsonable_set _ _ _ h1 (ht t hty)
  · split
    · exact jsonable_set _ _ _ (jsonable_set _ _ _ h1 (hk k rfl)) (ht t hty)
    · exact jsonable_set _ _ _ h1 (ht t hty)

theorem algFor_truthy {o : Jwx} {keys : List Key} {alg : PyVal} (h : AlgFor o keys alg) :
    alg.truthy = true := by
  rcases h with ⟨-, h⟩ | ⟨-, k, -, h, rfl⟩ | ⟨-, rfl⟩
  · exact h
  · exact h
  · rfl

/-- What is known when `sign_compact` returns. -/
theorem signCompact_parts {E : Env} {o : Jwx} {keys : List Key} {prot : PyDict} {rnd : Nat} {t : String}
    (h : (o.signCompact E keys prot rnd).1 = .ok t) :
    ∃ alg key s0 s1, (∃ xargs, (o.algKeys E keys "sig" prot).1 = .ok (key, xargs, alg)) ∧
      AlgFor o keys alg ∧
      b64encodeItem (.dict (signHeader o prot alg key)) = .ok s0 ∧ b64encodeItem o.msg = .ok s1 ∧
      ((alg = .str "none" ∧ key = none ∧ utf8Encode t = s0 ++ 46 :: s1 ++ [46]) ∨
       ∃ name a k l kid ka sig, alg = .str name ∧ SupportedAlg name a ∧ key = some k ∧
        EffKeys o keys l ∧ SignKid o kid ∧ FirstSigner a name kid l k ∧
        k.getKey true = .ok ka ∧ a.sign E rnd (s0 ++ 46 :: s1) ka = .ok sig ∧
        utf8Encode t = s0 ++ 46 :: s1 ++ 46 :: b64e sig) := by
  unfold Jwx.signCompact at h
  generalize hak : o.algKeys E keys "sig" prot = r at h
  rcases r with ⟨e | ⟨key, xargs, alg⟩, o'⟩
  · simp at h
  simp only at h
  unfold Jwx.algKeys at hak
  have hsp := pickAlg_spec o keys
  have hst := pickAlg_state o keys
  generalize o.pickAlg keys = pa at hak hsp hst
  obtain ⟨alg', o1⟩ := pa
  simp only [Prod.mk.injEq] at hak hsp hst
  obtain ⟨hak, rfl⟩ := hak
  obtain ⟨hmsg, hjwk, hjwt, hdict⟩ := hst
  simp only [Bind.bind] at hak
  obtain ⟨src, hsrc, hak1⟩ := bind_ok_iff.mp hak
  obtain ⟨ks, hks, hak2⟩ := bind_ok_iff.mp hak1
  clear hak hak1
  -- the header
  rw [hdict "typ" (by decide)] at h
  have hx : alg = alg' ∧ (∀ k, key = some k → ∃ l, ks = k :: l) ∧
      (match PyDict.get? o.dict "typ" with
        | some t => PyDict.set xargs "typ" t
        | none => xargs) = signHeader o prot alg key := by
    unfold signHeader
    rcases ks with _ | ⟨k, l⟩
    · simp only at hak2
      obtain ⟨b, hb, hak⟩ := bind_ok_iff.mp hak2
      rcases b with _ | _
      · simp at hak
      · simp only [if_true, Except.ok.injEq, Prod.mk.injEq] at hak
        obtain ⟨rfl, rfl, rfl⟩ := hak
        exact ⟨rfl, by simp, rfl⟩
    · simp only [Except.ok.injEq, Prod.mk.injEq] at hak2
      obtain ⟨rfl, rfl, rfl⟩ := hak2
      exact ⟨rfl, by rintro k' h; cases h; exact ⟨l, rfl⟩, rfl⟩
  obtain ⟨rfl, hkey, hhdr⟩ := hx
  have htr := algFor_truthy hsp
  obtain ⟨jwt, hjw0, h0⟩ := bind_ok_iff.mp h
  have hjw : Jwt.init (signHeader o prot alg key) = .ok jwt := by rw [← hhdr]; exact hjw0
  clear hak2 hhdr hjw0 h
  rename' h0 => h
  have hjh : jwt.headers = .dict (signHeader o prot alg key) := by
    unfold Jwt.init at hjw
    split at hjw
    · simp at hjw
    · simp only [Bind.bind] at hjw
      obtain ⟨b, -, hjw⟩ := bind_ok_iff.mp hjw
      obtain ⟨p, -, hjw⟩ := bind_ok_iff.mp hjw
      obtain rfl := Except.ok.inj hjw
      simp only
      rw [if_pos]
      rw [(signHeader_spec o prot alg key).1]
      exact htr
  split at h
  · -- unsigned
    rename_i hn
    obtain ⟨bh, bs, h1, h2, h3⟩ := pack_ok hjh (signHeader_ne_nil _ _ _ _) (by simp) h
    have h2 := mapM_forall₂.mp h2
    rw [hmsg] at h2
    obtain ⟨s1, hs1, l2, hl2, rfl⟩ : ∃ s1, b64encodeItem o.msg = .ok s1 ∧ ∃ l2,
        l2 = [] ∧ bs = [s1, l2] := by
      match bs, h2 with
      | [x, y], .cons hx (.cons hy .nil) =>
        have : y = [] := by
          have : b64encodeItem (.str "") = .ok [] := by decide
          rw [this] at hy; exact (Except.ok.inj hy).symm
        exact ⟨x, hx, y, this, rfl⟩
    subst hl2
    have hkn : key = none := by
      subst hn
      rcases key with _ | k
      · rfl
      · obtain ⟨l, rfl⟩ := hkey k rfl
        exfalso
        unfold Jwx.pickKeys at hks
        simp [PyVal.truthy, Bind.bind, Except.bind] at hks
    exact ⟨alg, key, bh, s1, ⟨xargs, rfl⟩, hsp, h1, hs1, .inl ⟨hn, hkn, by rw [h3, joinDot3]⟩⟩
  · rename_i hn
    generalize hsg : signerOf alg = sg at h
    rcases sg with _ | _ | a
    · simp at h
    · simp at h
    simp only at h
    obtain ⟨name, rfl, hsup⟩ := (signerOf_iff _ _).mp hsg
    obtain ⟨input, hin, h⟩ := bind_ok_iff.mp h
    rcases key with _ | k
    · simp at h
    simp only at h
    obtain ⟨ka, hka, h⟩ := bind_ok_iff.mp h
    obtain ⟨sig, hsig, h⟩ := bind_ok_iff.mp h
    obtain ⟨s, hs, h⟩ := bind_ok_iff.mp h
    obtain rfl := Except.ok.inj h
    obtain ⟨bh, bs, h1, h2, h3⟩ := pack_ok hjh (signHeader_ne_nil _ _ _ _) (by simp) hin
    have h2 := mapM_forall₂.mp h2
    rw [hmsg] at h2
    obtain ⟨s1, hs1, rfl⟩ : ∃ s1, b64encodeItem o.msg = .ok s1 ∧ bs = [s1] := by
      match bs, h2 with
      | [x], .cons hx .nil => exact ⟨x, hx, rfl⟩
    have hin2 : utf8Encode input = bh ++ 46 :: s1 := by rw [h3]; rfl
    obtain ⟨l, hl⟩ := hkey k rfl
    subst hl
    obtain ⟨hnone, hne, kt, hkt, hty⟩ := supported_alg2keytype hsup
    have hnn : name ≠ "none" := by intro h; subst h; exact hnone (by decide)
    have htr' : (PyVal.str name).truthy = true := htr
    -- the keys
    have hinv : ∃ (lk : List Key) (kid : PyVal), src = lk.map JKey.key ∧ o1.wantedKid = .ok kid := by
      unfold Jwx.pickKeys at hks
      simp only [htr', if_true, Bind.bind, Except.bind, hkt] at hks
      rw [if_neg (by intro h; cases h; exact hnn rfl)] at hks
      generalize hx : keysOfType kt src = x at hks
      rcases x with e | x
      · simp at hks
      obtain ⟨lk, hlk⟩ := keysOfType_ok hx
      generalize hw : o1.wantedKid = w at hks
      rcases w with e | w
      · simp at hks
      exact ⟨lk, w, hlk, rfl⟩
    obtain ⟨lk, kid, rfl, hwk⟩ := hinv
    rw [pickKeys_str o1 name kt lk "sig" hne hnn hkt (.str name) (.inl rfl) kid hwk] at hks
    obtain hks := Except.ok.inj hks
    rw [List.filter_filter] at hks
    have hmem : ∀ x, (keyPasses kid "sig" (.str name) x && ktyMatches kt x.kty) = true ↔
        SignSuitable a name kid x := by
      intro x
      rw [Bool.and_eq_true, hty, keyPasses_iff kid "sig" name hne]
      simp only [SignSuitable, Suitable, ne_eq, show ¬ ("sig" = "") by decide, not_false_eq_true,
        forall_const]
      tauto
    obtain ⟨l1, l2, hl, hl1, -, hk⟩ := filter_split _ _ [] k l (by simpa using hks)
    have hfs : FirstSigner a name kid lk k := by
      refine ⟨l1, l2, hl, (hmem k).mp hk, fun x hx hs => ?_⟩
      have := (List.mem_filter (p := fun x => keyPasses kid "sig" (.str name) x &&
        ktyMatches kt x.kty)).mpr ⟨hx, (hmem x).mpr hs⟩
      rw [hl1] at this
      simp at this
    have hkid : SignKid o kid := by
      have := signKid_of hwk
      unfold SignKid at this ⊢
      rw [hdict "kid" (by decide), hjwt] at this
      exact this
    have heff : EffKeys o keys lk := by
      rcases keySource_cases hsrc rfl with he | rfl
      · unfold EffKeys at he ⊢
        rw [hjwk] at he
        exact he
      · obtain ⟨pre, post, hp, -⟩ := hfs
        simp at hp
    refine ⟨.str name, some k, bh, s1, ⟨xargs, rfl⟩, hsp, h1, hs1, .inr ⟨name, a, k, lk, kid, ka, sig, rfl, hsup,
      rfl, heff, hkid, hfs, hka, by rw [← hin2]; exact hsig, ?_⟩⟩
    rw [utf8Encode_strJoin]
    simp only [List.map_cons, List.map_nil, joinDot]
    rw [hin2, utf8Encode_of_decode hs]

theorem signCompact_ok {E : Env} {o : Jwx} {keys : List Key} {prot : PyDict} {rnd : Nat} {t : String}
    (h : (o.signCompact E keys prot rnd).1 = .ok t) :
    ∃ alg key s0 s1, AlgFor o keys alg ∧
      b64encodeItem (.dict (signHeader o prot alg key)) = .ok s0 ∧ b64encodeItem o.msg = .ok s1 ∧
      ((alg = .str "none" ∧ key = none ∧ utf8Encode t = s0 ++ 46 :: s1 ++ [46]) ∨
       ∃ name a k l kid ka sig, alg = .str name ∧ SupportedAlg name a ∧ key = some k ∧
        EffKeys o keys l ∧ SignKid o kid ∧ FirstSigner a name kid l k ∧
        k.getKey true = .ok ka ∧ a.sign E rnd (s0 ++ 46 :: s1) ka = .ok sig ∧
        utf8Encode t = s0 ++ 46 :: s1 ++ 46 :: b64e sig) := by
  obtain ⟨alg, key, s0, s1, -, h⟩ := signCompact_parts h
  exact ⟨alg, key, s0, s1, h⟩

/-- A key's own signature is accepted by it. -/
theorem sign_accepts {E : Env} (hR : E.R.Lawful) {a : SigAlg} {k : Key} (hown : OwnKey k a)
    {rnd : Nat} {input sig : Bytes} {ka : KeyArg} (hka : k.getKey true = .ok ka)
    (hs : a.sign E rnd input ka = .ok sig) : Accepts E k input sig a := by
  have hnec : ∀ {r : KObj}, ka = .obj r → (∀ v, r ≠ .val v) → ¬ IsEc k ∧ k.key = r := by
    intro r hr hv
    subst hr
    have : ¬ IsEc k := by
      rintro ⟨crv, x, y, d, c, hm⟩
      simp only [Key.getKey, hm, if_true] at hka
      split at hka
      · simp only [Except.ok.injEq, KeyArg.obj.injEq] at hka; exact hv d hka.symm
      · simp at hka
    rw [getKey_not_ec this] at hka
    simp only [Except.ok.injEq, KeyArg.obj.injEq] at hka
    exact ⟨this, hka⟩
  cases a with
  | hs h =>
    simp only [SigAlg.sign, Bind.bind] at hs
    obtain ⟨sec, h1, h2⟩ := bind_ok_iff.mp hs
    unfold hmacKey at h1
    split at h1
    · rename_i b
      obtain rfl := Except.ok.inj h1
      obtain rfl := Except.ok.inj h2
      have hec : ¬ IsEc k := hown
      rw [getKey_not_ec hec] at hka
      simp only [Except.ok.injEq, KeyArg.obj.injEq] at hka
      exact ⟨hec, b, hka, rfl⟩
    · simp at h1
  | rs h =>
    simp only [SigAlg.sign, Bind.bind] at hs
    obtain ⟨r, h1, h2⟩ := bind_ok_iff.mp hs
    unfold rsaKeyArg at h1
    split at h1
    · obtain rfl := Except.ok.inj h1
      obtain ⟨hec, hk⟩ := hnec rfl (by simp)
      exact ⟨hec, _, hk, hR.pkcs1_sig h _ _ input sig ⟨rfl, rfl⟩ h2⟩
    · simp at h1
  | ps h =>
    simp only [SigAlg.sign, Bind.bind] at hs
    obtain ⟨r, h1, h2⟩ := bind_ok_iff.mp hs
    unfold rsaKeyArg at h1
    split at h1
    · obtain rfl := Except.ok.inj h1
      obtain ⟨hec, hk⟩ := hnec rfl (by simp)
      exact ⟨hec, _, hk, hR.pss_sig h _ _ rnd input sig ⟨rfl, rfl⟩ h2⟩
    · simp at h1
  | es h =>
    obtain ⟨C, crv, d, i, j, c, hC, hm, hi, hj, hpub⟩ := hown
    simp only [Key.getKey, hm, if_true] at hka
    split at hka
    swap
    · simp at hka
    obtain rfl := Except.ok.inj hka
    have hC' := (esCurve_iff h C).mpr hC
    simp only [SigAlg.sign, Bind.bind, hC', Except.bind, esPriv, PyVal.asInt?] at hs
    split at hs
    · rename_i r hr
      subst hs
      refine ⟨C, some (i, j), hC, .inl ⟨crv, .int i, .int j, .int d, c, i, j, hm, rfl, rfl, hi, hj, rfl⟩, ?_⟩
      rw [← hpub]
      exact (NistCurve.C52_roundtrip (curveFor_sound hC) _ _ _ _ _ _ hr).1
    · simp at hs

end Verif
