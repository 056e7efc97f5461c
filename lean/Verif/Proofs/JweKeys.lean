import Verif.Proofs.Jwe
/-
Lemmas for the JWE properties: key selection, header dictionaries, the way through `decrypt`.
-/

namespace Verif
open Spec

/-! ### Key selection -/

theorem mgmt_keytype {alg : String} {m : KeyMgmt} (h : MgmtName alg m) :
    alg ≠ "" ∧ alg ≠ "none" ∧ ∃ kt, jweAlg2keytype (.str alg) = .ok (some kt) ∧
      ∀ v, ktyMatches kt v = true ↔ Spelled (MgmtType m).1 (MgmtType m).2 v := by
  have key : ∀ kt lo up, pyLower kt = lo → pyUpper kt = up → ∀ v, ktyMatches kt v = true ↔ Spelled lo up v := by
    rintro kt _ _ rfl rfl v
    simp [ktyMatches, Spelled, or_assoc]
  cases h <;> refine ⟨by decide, by decide, ?_⟩
  all_goals first
    | exact ⟨"oct", by decide, key "oct" "oct" "OCT" (by decide) (by decide)⟩
    | exact ⟨"RSA", by decide, key "RSA" "rsa" "RSA" (by decide) (by decide)⟩
    | exact ⟨"EC", by decide, key "EC" "ec" "EC" (by decide) (by decide)⟩

theorem mgmt_kind {alg : String} {m : KeyMgmt} (h : MgmtName alg m) :
    jweKind (.str alg) = .ok (match m with
      | .wrap _ => .sym | .rsa _ => .rsa | .direct => .ec | .agreeWrap _ => .ec) := by
  cases h <;> decide

theorem wantedKid_of_signKid {o : Jwx} {kid : PyVal} (h : SignKid o kid) : o.wantedKid = .ok kid := by
  unfold Jwx.wantedKid
  rcases h with h | ⟨h, ⟨hj, rfl⟩ | ⟨j, hdr, hj, hh, rfl⟩⟩
  · simp [h]
  · simp [h, hj]
  · simp only [h, hj, hh, PyVal.getItem]
    cases PyDict.get? hdr "kid" <;> rfl

theorem filter_first {α : Type} (p : α → Bool) (P : α → Prop) (hp : ∀ x, p x = true ↔ P x) {l : List α}
    {k : α} : (∃ rest, l.filter p = k :: rest) ↔
      ∃ pre post, l = pre ++ k :: post ∧ P k ∧ ∀ x ∈ pre, ¬ P x := by
  constructor
  · rintro ⟨rest, h⟩
    obtain ⟨l1, l2, hl, hl1, -, hk⟩ := filter_split p l [] k rest (by simpa using h)
    refine ⟨l1, l2, hl, (hp k).mp hk, fun x hx hs => ?_⟩
    have := List.mem_filter.mpr ⟨hx, (hp x).mpr hs⟩
    rw [hl1] at this
    simp at this
  · rintro ⟨pre, post, rfl, hk, hpre⟩
    refine ⟨post.filter p, ?_⟩
    rw [List.filter_append, List.filter_cons_of_pos ((hp k).mpr hk)]
    have : pre.filter p = [] := by
      rw [List.filter_eq_nil_iff]
      intro x hx h
      exact hpre x hx ((hp x).mp h)
    rw [this]; rfl

theorem picked_iff {alg : String} {m : KeyMgmt} (h : MgmtName alg m) {kt : String}
    (hty : ∀ v, ktyMatches kt v = true ↔ Spelled (MgmtType m).1 (MgmtType m).2 v) (kid : PyVal) (x : Key) :
    (keyPasses kid "enc" (.str alg) x && ktyMatches kt x.kty) = true ↔ EncPicked m alg kid x := by
  rw [Bool.and_eq_true, hty, keyPasses_iff kid "enc" alg (mgmt_keytype h).1]
  unfold EncPicked Picked
  tauto

/-- What `pick_keys` returns, for the algorithm named in the argument or else in the object. -/
theorem pickKeys_jwe {alg : String} {m : KeyMgmt} (hm : MgmtName alg m) (o : Jwx) (av : PyVal)
    (hav : av = .str alg ∨ (av.truthy = false ∧ PyDict.get? o.dict "alg" = some (.str alg)))
    {kid : PyVal} (hkid : o.wantedKid = .ok kid) (l : List Key) :
    ∃ ks, o.pickKeys jweAlg2keytype (l.map JKey.key) "enc" av = .ok ks ∧
      (∀ k, (∃ rest, ks = k :: rest) ↔ FirstPicked m alg kid l k) ∧
      (∀ k, k ∈ ks ↔ k ∈ l ∧ EncPicked m alg kid k) := by
  obtain ⟨hne, hn, kt, hkt, hty⟩ := mgmt_keytype hm
  refine ⟨_, pickKeys_str o alg kt l "enc" hne hn hkt av hav kid hkid, ?_, ?_⟩
  · intro k
    rw [List.filter_filter]
    exact filter_first _ _ (picked_iff hm hty kid)
  · intro k
    rw [List.filter_filter, List.mem_filter]
    exact and_congr_right fun _ => picked_iff hm hty kid k

theorem pickKeys_jwe_inv {alg : String} {m : KeyMgmt} (hm : MgmtName alg m) (o : Jwx) (av : PyVal)
    (hav : av = .str alg ∨ (av.truthy = false ∧ PyDict.get? o.dict "alg" = some (.str alg)))
    {src : List JKey} {ks : List Key} (h : o.pickKeys jweAlg2keytype src "enc" av = .ok ks) :
    ∃ (l : List Key) (kid : PyVal), src = l.map JKey.key ∧ o.wantedKid = .ok kid := by
  obtain ⟨hne, hn, kt, hkt, hty⟩ := mgmt_keytype hm
  have htr : (PyVal.str alg).truthy = true := by simp [PyVal.truthy, hne]
  have h1 : (if av.truthy then (.ok av : PyM PyVal) else PyVal.getItem (.dict o.dict) "alg")
      = .ok (.str alg) := by
    rcases hav with rfl | ⟨h1, h2⟩
    · simp [htr]
    · simp [h1, PyVal.getItem, h2]
  unfold Jwx.pickKeys at h
  simp only [Bind.bind, h1] at h
  obtain ⟨x, hx, h2⟩ := bind_ok_iff.mp h
  cases hx
  rw [if_neg (by intro h; cases h; exact hn rfl)] at h2
  obtain ⟨y, hy, h3⟩ := bind_ok_iff.mp h2
  rw [hkt] at hy
  cases hy
  simp only at h3
  obtain ⟨z, hz, h4⟩ := bind_ok_iff.mp h3
  obtain ⟨w, hw, h5⟩ := bind_ok_iff.mp h4
  obtain ⟨l, hl⟩ := keysOfType_ok hz
  exact ⟨l, w, hl, hw⟩

/-- What is known when `JWE.encrypt` returns: the key used is the first suitable one. -/
theorem jwe_encrypt_ok {E : Env} {o : Jwe} {rnd : JweRnd} {keys : List Key} {cek iv : Bytes}
    {kid : Option PyVal} {t : String} {alg : String} {m : KeyMgmt}
    (halg : PyDict.get? o.dict "alg" = some (.str alg)) (hm : MgmtName alg m)
    (h : (o.encrypt E rnd keys cek iv kid).1 = .ok t) :
    ∃ l wk k c, EffKeys o.toJwx keys l ∧ SignKid o.toJwx wk ∧ FirstPicked m alg wk l k ∧
      o.encryptWith E rnd (.str alg) k cek iv kid = .ok (t, c) := by
  unfold Jwe.encrypt at h
  simp only at h
  split at h
  swap
  · cases h
  rename_i t' c he
  cases h
  simp only [Bind.bind, PyVal.getItem, halg] at he
  obtain ⟨a, ha, he1⟩ := bind_ok_iff.mp he
  cases ha
  obtain ⟨src, hsrc, he2⟩ := bind_ok_iff.mp he1
  obtain ⟨ks, hks, he3⟩ := bind_ok_iff.mp he2
  obtain ⟨l, wk, rfl, hwk⟩ := pickKeys_jwe_inv hm o.toJwx (.str "") (.inr ⟨rfl, halg⟩) hks
  obtain ⟨ks', hks', hf, -⟩ := pickKeys_jwe hm o.toJwx (.str "") (.inr ⟨rfl, halg⟩) hwk l
  rw [hks] at hks'
  cases hks'
  rcases ks with _ | ⟨k, rest⟩
  · cases he3
  have hfp := (hf k).mp ⟨rest, rfl⟩
  refine ⟨l, wk, k, c, ?_, signKid_of hwk, hfp, he3⟩
  rcases keySource_cases hsrc rfl with he | rfl
  · exact he
  · obtain ⟨pre, post, hp, -⟩ := hfp
    simp at hp

/-- `JWE.encrypt` goes through with the first suitable key. -/
theorem encrypt_of_first {E : Env} {o : Jwe} {rnd : JweRnd} {keys l : List Key} {cek iv : Bytes}
    {kid : Option PyVal} {alg : String} {m : KeyMgmt} {wk : PyVal} {k : Key}
    (halg : PyDict.get? o.dict "alg" = some (.str alg)) (hm : MgmtName alg m)
    (he : EffKeys o.toJwx keys l) (hk : SignKid o.toJwx wk) (hf : FirstPicked m alg wk l k) :
    (o.encrypt E rnd keys cek iv kid).1 =
      (o.encryptWith E rnd (.str alg) k cek iv kid).map Prod.fst := by
  obtain ⟨ks, hks, hfirst, -⟩ := pickKeys_jwe hm o.toJwx (.str "") (.inr ⟨rfl, halg⟩)
    (wantedKid_of_signKid hk) l
  obtain ⟨rest, rfl⟩ := (hfirst k).mpr hf
  unfold Jwe.encrypt
  simp only [PyVal.getItem, halg, Bind.bind, Except.bind, keySource_of_eff he, hks]
  generalize o.encryptWith E rnd (.str alg) k cek iv kid = r
  rcases r with e | ⟨t, c⟩ <;> rfl

/-- The object after a successful `JWE.encrypt`. -/
theorem encrypt_state {E : Env} {o : Jwe} {rnd : JweRnd} {keys l : List Key} {cek iv : Bytes}
    {kid : Option PyVal} {alg : String} {m : KeyMgmt} {wk : PyVal} {k : Key}
    (halg : PyDict.get? o.dict "alg" = some (.str alg)) (hm : MgmtName alg m)
    (he : EffKeys o.toJwx keys l) (hk : SignKid o.toJwx wk) (hf : FirstPicked m alg wk l k) {t : String}
    {c : PyVal} (h : o.encryptWith E rnd (.str alg) k cek iv kid = .ok (t, c)) :
    PyDict.get? (o.encrypt E rnd keys cek iv kid).2.dict "cek" = some c := by
  obtain ⟨ks, hks, hfirst, -⟩ := pickKeys_jwe hm o.toJwx (.str "") (.inr ⟨rfl, halg⟩)
    (wantedKid_of_signKid hk) l
  obtain ⟨rest, rfl⟩ := (hfirst k).mpr hf
  unfold Jwe.encrypt
  simp only [PyVal.getItem, halg, Bind.bind, Except.bind, keySource_of_eff he, hks, h]
  rw [PyDict.get?_set, if_pos rfl]

/-! ### Headers -/

theorem distinctD_iff {l : List (String × PyVal)} : DistinctD l ↔ ∀ p ∈ l, Distinct p.2 := by
  induction l with
  | nil => simp [DistinctD]
  | cons a l ih => simp [DistinctD, ih]

theorem distinct_set {d : PyDict} {n : String} {v : PyVal} (h : Distinct (.dict d)) (hv : Distinct v) :
    Distinct (.dict (PyDict.set d n v)) := by
  simp only [Distinct] at h ⊢
  refine ⟨PyDict.set_keys_nodup d n v h.1, ?_⟩
  have h2 := h.2
  clear h
  induction d with
  | nil => simp [PyDict.set, DistinctD, hv]
  | cons kv d ih =>
    obtain ⟨k', v'⟩ := kv
    simp only [DistinctD] at h2
    unfold PyDict.set
    split
    · simp [DistinctD, hv, h2.2]
    · simp [DistinctD, h2.1, ih h2.2]

theorem distinct_update {d e : PyDict} (h : Distinct (.dict d)) (he : ∀ p ∈ e, Distinct p.2) :
    Distinct (.dict (PyDict.update d e)) := by
  unfold PyDict.update
  induction e generalizing d with
  | nil => exact h
  | cons x e ih =>
    rw [List.foldl_cons]
    exact ih (distinct_set h (he x (by simp))) (fun p hp => he p (by simp [hp]))

theorem distinct_initStep {kw d : PyDict} {a : String} (hkw : ∀ n v, PyDict.get? kw n = some v → Distinct v)
    (h : Distinct (.dict d)) : Distinct (.dict (initStep kw d a)) := by
  unfold initStep
  split
  · split
    · exact distinct_set h trivial
    · exact h
  · rename_i v hv
    split
    · refine distinct_set h ?_
      split
      · exact hkw _ _ hv
      · simp [Distinct, DistinctL]
    · exact distinct_set h (hkw _ _ hv)

theorem distinct_initFold {kw : PyDict} (hkw : ∀ n v, PyDict.get? kw n = some v → Distinct v)
    (l : List String) : ∀ d, Distinct (.dict d) → Distinct (.dict (l.foldl (initStep kw) d)) := by
  induction l with
  | nil => exact fun d h => h
  | cons a l ih => exact fun d h => ih _ (distinct_initStep hkw h)

theorem distinct_nil : Distinct (.dict []) := by simp [Distinct, DistinctD]

/-- A parameter other than `x5c` and `crit` is copied. -/
theorem get?_initFold_mem (kw : PyDict) (n : String) (hx : n ≠ "x5c") (hc : n ≠ "crit") (ha : n ≠ "alg")
    (l : List String) (hn : n ∈ l) : ∀ d, PyDict.get? d n = none →
    PyDict.get? (l.foldl (initStep kw) d) n = PyDict.get? kw n := by
  have key : ∀ (l : List String) (d : PyDict), PyDict.get? d n = PyDict.get? kw n →
      PyDict.get? (l.foldl (initStep kw) d) n = PyDict.get? kw n := by
    intro l
    induction l with
    | nil => exact fun d h => h
    | cons a l ih =>
      intro d h
      rw [List.foldl_cons]
      apply ih
      by_cases hna : n = a
      · subst hna
        unfold initStep
        rcases hv : PyDict.get? kw n with _ | v
        · simp only
          rw [if_neg ha, h, hv]
        · simp only
          rw [if_neg (by tauto), PyDict.get?_set, if_pos rfl]
      · rw [get?_initStep _ _ _ _ hna hx, h]
  induction l with
  | nil => simp at hn
  | cons a l ih =>
    intro d hd
    rw [List.foldl_cons]
    by_cases hna : n = a
    · subst hna
      apply key
      unfold initStep
      rcases hv : PyDict.get? kw n with _ | v
      · simp only
        rw [if_neg ha, hd]
      · simp only
        rw [if_neg (by tauto), PyDict.get?_set, if_pos rfl]
    · exact ih ((List.mem_cons.mp hn).resolve_left hna) _ (by rw [get?_initStep _ _ _ _ hna hx, hd])

theorem get?_initFold_alg (kw : PyDict) (v : PyVal) (hv : PyDict.get? kw "alg" = some v)
    (l : List String) : PyDict.get? (("alg" :: l).foldl (initStep kw) []) "alg" = some v := by
  have key : ∀ (l : List String) (d : PyDict), PyDict.get? d "alg" = some v →
      PyDict.get? (l.foldl (initStep kw) d) "alg" = some v := by
    intro l
    induction l with
    | nil => exact fun d h => h
    | cons a l ih =>
      intro d h
      rw [List.foldl_cons]
      apply ih
      by_cases hna : "alg" = a
      · subst hna
        unfold initStep
        simp only [hv]
        rw [if_neg (by decide), PyDict.get?_set, if_pos rfl]
      · rw [get?_initStep _ _ _ _ hna (by decide), h]
  rw [List.foldl_cons]
  apply key
  unfold initStep
  simp only [hv]
  rw [if_neg (by decide), PyDict.get?_set, if_pos rfl]

/-! ### Decryption up to the choice of the key -/

theorem decrypt_single {E : Env} {o : Jwe} {rnd : JweRnd} {token : Bytes} {keys l : List Key} {wk : PyVal}
    {k : Key} {j : Jwt} {h' : PyDict} {alg : String} {m : KeyMgmt} (ht : Jwt.unpack token = .ok j)
    (hj : j.headers = .dict h') (halg : PyDict.get? h' "alg" = some (.str alg)) (hm : MgmtName alg m)
    (he : EffKeys o.toJwx keys l) (hk : SignKid o.toJwx wk) (hf : FirstPicked m alg wk l k) (cek : Bytes) :
    ∃ rest, o.decryptJwt E rnd j keys .none cek =
      (match m with
      | .wrap _ => decryptTry E .sym rnd j ([], [], [], []) (.str alg) (k :: rest) cek
      | .rsa _ => decryptTry E .rsa rnd j ([], [], [], []) (.str alg) (k :: rest) cek
      | .direct => (ecDecSetup E j k).bind fun s => decryptTry E .ec rnd j s (.str alg) (k :: rest) s.1
      | .agreeWrap _ =>
        (ecDecSetup E j k).bind fun s => decryptTry E .ec rnd j s (.str alg) (k :: rest) s.1) ∧
      (o.decrypt E rnd token keys .none cek).1 =
        (o.decryptJwt E rnd j keys .none cek).map Prod.fst := by
  obtain ⟨ks, hks, hfirst, -⟩ := pickKeys_jwe hm o.toJwx (.str alg) (.inl rfl) (wantedKid_of_signKid hk) l
  obtain ⟨rest, rfl⟩ := (hfirst k).mpr hf
  refine ⟨rest, ?_, ?_⟩
  · unfold Jwe.decryptJwt
    rw [hj]
    simp only [PyVal.getItem, halg, Bind.bind, Except.bind]
    rw [if_neg (by simp [none_truthy]), keySource_of_eff he]
    simp only [hks]
    rw [if_neg (by simp), mgmt_kind hm]
    cases m <;> rfl
  · unfold Jwe.decrypt Jwe.tokenOf
    have hne : token ≠ [] := by
      rintro rfl
      simp [Jwt.unpack, splitToken, Bind.bind, Except.bind] at ht
    rw [if_pos hne, ht]
    simp only [Bind.bind, Except.bind]
    generalize o.decryptJwt E rnd j keys .none cek = r
    rcases r with e | ⟨m, c⟩ <;> rfl

end Verif
