import Verif.Spec.JwsJson
import Verif.Props.JwsVerify
/-
`verify_json` in the terms of `Spec/JwsJson`.
-/

namespace Verif
open Spec

/-! ### Dictionaries -/

theorem parseNum_not_dict {neg : Bool} {l r : List Char} {d : PyDict}
    (h : parseNum neg l = some (.dict d, r)) : False := by
  unfold parseNum at h
  split at h
  · simp at h
  · grind

theorem parseAtom_not_dict {l r : List Char} {d : PyDict} (h : parseAtom l = some (.dict d, r)) :
    False := by
  unfold parseAtom at h
  repeat' split at h
  all_goals first
    | exact absurd h (by simp)
    | exact parseNum_not_dict h

theorem foldl_set_keys_nodup (e : PyDict) : ∀ d : PyDict, (d.map Prod.fst).Nodup →
    ((e.foldl (fun d kv => PyDict.set d kv.1 kv.2) d).map Prod.fst).Nodup := by
  induction e with
  | nil => intro d h; exact h
  | cons x e ih => intro d h; exact ih _ (PyDict.set_keys_nodup d _ _ h)

/-- Parsed objects have no duplicate members. -/
theorem jsonLoads_nodup {s : String} {d : PyDict} (h : jsonLoads s = .ok (.dict d)) :
    (d.map Prod.fst).Nodup := by
  unfold jsonLoads at h
  simp only at h
  generalize hl : skipWs s.toList = l at h
  split at h
  swap
  · simp at h
  rename_i v r hp
  split at h
  swap
  · simp at h
  obtain rfl := Except.ok.inj h
  unfold parseV at hp
  split at hp
  · simp [Option.bind_eq_bind, Option.bind_eq_some_iff] at hp
  · split at hp
    · simp at hp
    · simp [Option.bind_eq_bind, Option.bind_eq_some_iff] at hp
  · split at hp
    · simp only [Option.some.injEq, Prod.mk.injEq, PyVal.dict.injEq] at hp
      rw [← hp.1]; simp
    · simp only [Option.bind_eq_bind, Option.bind_eq_some_iff, Prod.exists, Option.some.injEq,
        Prod.mk.injEq, PyVal.dict.injEq] at hp
      obtain ⟨ms, r', -, rfl, -⟩ := hp
      exact foldl_set_keys_nodup ms [] (by simp)
  · exact (parseAtom_not_dict hp).elim

theorem get?_foldl_set (e : PyDict) : ∀ (d : PyDict) (n : String), n ∉ e.map Prod.fst →
    PyDict.get? (e.foldl (fun d kv => PyDict.set d kv.1 kv.2) d) n = PyDict.get? d n := by
  induction e with
  | nil => intro d n _; rfl
  | cons x e ih =>
    intro d n hn
    simp only [List.map_cons, List.mem_cons, not_or] at hn
    simp only [List.foldl_cons]
    rw [ih _ n hn.2, PyDict.get?_set, if_neg hn.1]

theorem get?_none_iff (d : PyDict) (n : String) : PyDict.get? d n = none ↔ n ∉ d.map Prod.fst := by
  unfold PyDict.get?
  rw [List.lookup_eq_none_iff]
  simp only [List.mem_map, not_exists, not_and, bne_iff_ne, ne_eq]
  constructor
  · intro h x hx he; exact h x hx he.symm
  · intro h x hx he; exact h x hx he.symm

/-- `update` gives precedence to the second dictionary. -/
theorem get?_update (e : PyDict) : ∀ (d : PyDict) (_ : (e.map Prod.fst).Nodup) (n : String),
    PyDict.get? (PyDict.update d e) n = Merged e d n := by
  unfold PyDict.update Merged
  induction e with
  | nil => intro d _ n; rfl
  | cons x e ih =>
    intro d h n
    obtain ⟨a, v⟩ := x
    simp only [List.map_cons, List.nodup_cons] at h
    simp only [List.foldl_cons]
    by_cases hn : n = a
    · subst hn
      rw [get?_foldl_set e _ _ h.1, PyDict.get?_set]
      simp [PyDict.get?]
    · rw [ih _ h.2 n, PyDict.get?_set, if_neg hn]
      have : (n == a) = false := by simpa using hn
      simp [PyDict.get?, List.lookup_cons, this]

/-! ### The object set up from the header -/

theorem get?_stripInit (kw : PyDict) (n : String) (h1 : n ≠ "msg") (h2 : n ≠ "with_digest") :
    PyDict.get? (stripInit kw) n = PyDict.get? kw n := by
  unfold stripInit PyDict.get?
  induction kw with
  | nil => rfl
  | cons x l ih =>
    obtain ⟨a, v⟩ := x
    by_cases ha : n = a
    · subst ha
      rw [List.filter_cons_of_pos (by simp [h1, h2])]
      simp
    · have ha' : (n == a) = false := by simpa using ha
      rw [List.filter_cons]
      split
      · rw [List.lookup_cons, List.lookup_cons, ha', ih]
      · rw [List.lookup_cons, ha', ih]

theorem get?_initStep (kw d : PyDict) (a n : String) (hn : n ≠ a) (hx : n ≠ "x5c") :
    PyDict.get? (initStep kw d a) n = PyDict.get? d n := by
  unfold initStep
  split
  · split
    · rename_i h; rw [PyDict.get?_set, if_neg (by rw [← h]; exact hn)]
    · rfl
  · split
    · rw [PyDict.get?_set, if_neg hx]
    · rw [PyDict.get?_set, if_neg hn]

theorem get?_foldl_initStep (kw : PyDict) (n : String) (hx : n ≠ "x5c") :
    ∀ (l : List String) (d : PyDict), n ∉ l →
    PyDict.get? (l.foldl (initStep kw) d) n = PyDict.get? d n := by
  intro l
  induction l with
  | nil => intro d _; rfl
  | cons a l ih =>
    intro d hn
    simp only [List.mem_cons, not_or] at hn
    rw [List.foldl_cons, ih _ hn.2, get?_initStep _ _ _ _ hn.1 hx]

theorem jwkParam_iff (E : Env) (v : PyVal) (k : JKey) :
    jwkParam E v = .ok k ↔ EmbeddedKey E v k := by
  constructor
  · intro h
    unfold jwkParam at h
    split at h
    · rename_i d
      cases hk : keyrep E d <;> simp [hk, Except.map] at h
      subst h
      exact .dict d _ hk
    · rename_i s
      simp only [Bind.bind] at h
      obtain ⟨w, hw, h⟩ := bind_ok_iff.mp h
      split at h
      · rename_i d
        cases hk : keyrep E d <;> simp [hk, Except.map] at h
        subst h
        exact .text s d _ hw hk
      · simp at h
    · rename_i h1 h2
      obtain rfl := Except.ok.inj h
      exact .other v (fun d hd => h1 d hd) (fun s hs => h2 s hs)
  · intro h
    cases h with
    | dict d k h => simp [jwkParam, h, Except.map]
    | text s d k hs h => simp [jwkParam, hs, h, Except.map, Bind.bind, Except.bind]
    | other v hd hs =>
      unfold jwkParam
      split
      · exact absurd rfl (hd _)
      · exact absurd rfl (hs _)
      · rfl

/-- `self.__init__(**kw)` with an `alg` among the keywords. -/
theorem reinit_iff {E : Env} {o : Jwx} {kw : PyDict} {alg : PyVal}
    (ha : PyDict.get? kw "alg" = some alg) :
    (∃ o', o.reinit E kw = (.ok (), o')) ↔
      (PyDict.get? kw "self" = none ∧
        ∀ v, PyDict.get? kw "jwk" = some v → ∃ k, EmbeddedKey E v k) := by
  have hne : (stripInit kw).isEmpty = false := by
    have := get?_stripInit kw "alg" (by decide) (by decide)
    rw [ha] at this
    cases hs : stripInit kw with
    | nil => rw [hs] at this; simp [PyDict.get?] at this
    | cons _ _ => rfl
  unfold Jwx.reinit PyDict.has
  rcases hself : PyDict.get? kw "self" with _ | v
  swap
  · simp
  simp only [Option.isSome_none, Bool.false_eq_true, if_false, true_and]
  unfold Jwx.initBody
  simp only [hne, Bool.false_eq_true, if_false]
  rw [get?_stripInit kw "jwk" (by decide) (by decide)]
  rcases hj : PyDict.get? kw "jwk" with _ | v
  · simp
  · simp only [Option.some.injEq, forall_eq']
    rcases hp : jwkParam E v with e | k
    · simp only [Prod.mk.injEq, reduceCtorEq, false_and, exists_false, false_iff, not_exists]
      intro k hk
      rw [← jwkParam_iff, hp] at hk
      simp at hk
    · simp only [Prod.mk.injEq, true_and, exists_eq', true_iff]
      exact ⟨k, (jwkParam_iff E v k).mp hp⟩

theorem reinit_state {E : Env} {o o' : Jwx} {kw : PyDict} {alg : PyVal}
    (ha : PyDict.get? kw "alg" = some alg) (h : o.reinit E kw = (.ok (), o')) :
    PyDict.get? o'.dict "alg" = some alg ∧ PyDict.get? o'.dict "kid" = PyDict.get? kw "kid" ∧
    ∀ k, o'.jwk = some k ↔ ∃ v, PyDict.get? kw "jwk" = some v ∧ EmbeddedKey E v k := by
  have hne : (stripInit kw).isEmpty = false := by
    have := get?_stripInit kw "alg" (by decide) (by decide)
    rw [ha] at this
    cases hs : stripInit kw with
    | nil => rw [hs] at this; simp [PyDict.get?] at this
    | cons _ _ => rfl
  have hA : PyDict.get? (jwsArgs2.foldl (initStep (stripInit kw))
      (jwsArgs1.foldl (initStep (stripInit kw)) [])) "alg" = some alg := by
    rw [get?_foldl_initStep _ _ (by decide) _ _ (by decide),
      show jwsArgs1 = ["alg"] ++ ["jku"] by rfl, List.foldl_append,
      get?_foldl_initStep _ _ (by decide) _ _ (by decide)]
    simp [initStep, get?_stripInit kw "alg" (by decide) (by decide), ha, PyDict.get?_set]
  have hK : PyDict.get? (jwsArgs2.foldl (initStep (stripInit kw))
      (jwsArgs1.foldl (initStep (stripInit kw)) [])) "kid" = PyDict.get? kw "kid" := by
    rw [show jwsArgs2 = ["x5u", "x5t", "x5c"] ++ (["kid"] ++ ["typ", "cty", "crit"]) by rfl,
      List.foldl_append, List.foldl_append, get?_foldl_initStep _ _ (by decide) _ _ (by decide)]
    have h0 := get?_foldl_initStep (stripInit kw) "kid" (by decide) ["x5u", "x5t", "x5c"]
      (jwsArgs1.foldl (initStep (stripInit kw)) []) (by decide)
    rw [get?_foldl_initStep _ _ (by decide) jwsArgs1 _ (by decide)] at h0
    simp only [List.foldl_cons, List.foldl_nil] at h0 ⊢
    unfold initStep at h0 ⊢
    rcases hk : PyDict.get? kw "kid" with _ | v
    · rw [← get?_stripInit kw "kid" (by decide) (by decide)] at hk
      simp only [hk]
      rw [if_neg (by decide)]
      simpa [PyDict.get?] using h0
    · rw [← get?_stripInit kw "kid" (by decide) (by decide)] at hk
      simp only [hk]
      rw [if_neg (by decide), PyDict.get?_set, if_pos rfl]
  unfold Jwx.reinit at h
  split at h
  · simp at h
  unfold Jwx.initBody at h
  simp only [hne, Bool.false_eq_true, if_false] at h
  rw [get?_stripInit kw "jwk" (by decide) (by decide)] at h
  rcases hj : PyDict.get? kw "jwk" with _ | v <;> simp only [hj] at h
  · simp only [Prod.mk.injEq, true_and] at h
    subst h
    exact ⟨hA, hK, by simp⟩
  · rcases hp : jwkParam E v with e | k <;> simp only [hp, Prod.mk.injEq, reduceCtorEq, false_and,
      true_and] at h
    subst h
    refine ⟨hA, hK, ?_⟩
    intro k'
    simp only [Option.some.injEq, exists_eq_left']
    rw [← jwkParam_iff, hp]
    simp

/-! ### One entry -/

theorem entryParts_iff (payload sign : PyVal) (tok : Bytes) (kw : PyDict) :
    entryParts payload sign = .ok (tok, kw) ↔
    ∃ ph pl sg prot unprot hb hs, SigEntry sign ph sg unprot ∧ payload = .str pl ∧
      tok = utf8Encode ph ++ 46 :: utf8Encode pl ++ 46 :: utf8Encode sg ∧
      asciiEncode ph = .ok (utf8Encode ph) ∧ b64d (utf8Encode ph) = .ok hb ∧ utf8Decode hb = .ok hs ∧
      jsonLoads hs = .ok prot ∧ pyUpdate unprot prot = .ok kw := by
  constructor
  · intro h
    unfold entryParts at h
    split at h
    swap
    · simp at h
    rename_i d
    simp only [Bind.bind] at h
    obtain ⟨pb, h1, h⟩ := bind_ok_iff.mp h
    obtain ⟨pl, h2, h⟩ := bind_ok_iff.mp h
    obtain ⟨sg, h3, h⟩ := bind_ok_iff.mp h
    obtain ⟨sb, h4, h⟩ := bind_ok_iff.mp h
    obtain ⟨uh, h5, h⟩ := bind_ok_iff.mp h
    obtain ⟨hs, h6, h⟩ := bind_ok_iff.mp h
    obtain ⟨pd, h7, h⟩ := bind_ok_iff.mp h
    obtain ⟨kw', hupd, h⟩ := bind_ok_iff.mp h
    simp only [Except.ok.injEq, Prod.mk.injEq] at h
    obtain ⟨rfl, rfl⟩ := h
    obtain ⟨ph, hph, rfl⟩ : ∃ ph, kwGet d "protected" (.str "") = .str ph ∧ pb = utf8Encode ph := by
      unfold strEncode at h1
      split at h1
      · rename_i s hs; exact ⟨s, hs, (Except.ok.inj h1).symm⟩
      · simp at h1
    obtain ⟨pt, rfl, rfl⟩ : ∃ pt, payload = .str pt ∧ pl = utf8Encode pt := by
      unfold strEncode at h2
      split at h2
      · exact ⟨_, rfl, (Except.ok.inj h2).symm⟩
      · simp at h2
    obtain ⟨st, rfl, rfl⟩ : ∃ st, sg = .str st ∧ sb = utf8Encode st := by
      unfold strEncode at h4
      split at h4
      · exact ⟨_, rfl, (Except.ok.inj h4).symm⟩
      · simp at h4
    have h3' : PyDict.get? d "signature" = some (.str st) := by
      simp only [PyVal.getItem] at h3
      split at h3
      · rename_i v hv; rw [hv]; exact congrArg some (Except.ok.inj h3)
      · simp at h3
    have h7' : hs ≠ "" ∧ jsonLoads hs = .ok pd := by
      unfold entryParts.protVal at h7
      split at h7
      · simp at h7
      · rename_i hne
        exact ⟨hne, h7⟩
    rw [hph] at h6
    simp only [entryParts.protText, b64dEncDec, Bind.bind] at h6
    obtain ⟨ab, h8, h6a⟩ := bind_ok_iff.mp h6
    obtain ⟨hb, h9, h6b⟩ := bind_ok_iff.mp h6a
    clear h6 h6a
    rename' h6b => h6
    have hab := (asciiEncode_utf8 h8).1
    subst hab
    have hpr : PyDict.get? d "protected" = some (.str ph) := by
      unfold kwGet at hph
      rcases hg : PyDict.get? d "protected" with _ | v
      · rw [hg] at hph
        simp only [Option.getD_none, PyVal.str.injEq] at hph
        subst hph
        exfalso
        have e1 : utf8Encode "" = [] := by decide
        rw [e1, b64d_nil] at h9
        obtain rfl := Except.ok.inj h9
        have e2 : utf8Decode [] = .ok "" := by decide
        rw [e2] at h6
        exact h7'.1 (Except.ok.inj h6).symm
      · rw [hg] at hph
        simp only [Option.getD_some] at hph
        rw [hph]
    have hun : PyDict.get? d "header" = some (.dict uh) ∨ (PyDict.get? d "header" = none ∧ uh = []) := by
      unfold entryParts.asDictArg at h5
      unfold kwGet at h5
      rcases hg : PyDict.get? d "header" with _ | v
      · rw [hg] at h5
        simp only [Option.getD_none, Except.ok.injEq] at h5
        exact .inr ⟨rfl, h5.symm⟩
      · rw [hg] at h5
        simp only [Option.getD_some] at h5
        split at h5
        · exact .inl (by rw [Except.ok.inj h5])
        · simp at h5
    exact ⟨ph, pt, st, pd, uh, hb, hs, ⟨d, rfl, hpr, h3', hun⟩, rfl, rfl, h8, h9, h6, h7'.2, hupd⟩
  · rintro ⟨ph, pl, sg, prot, unprot, hb, hs, ⟨d, rfl, hpr, hsg, hun⟩, rfl, rfl, ha, h0, hu, hj, hupd⟩
    have hne : hs ≠ "" := by
      rintro rfl
      have : jsonLoads "" = .error .jsonDecodeError := by decide
      rw [this] at hj
      simp at hj
    have hun' : entryParts.asDictArg (kwGet d "header" (.dict [])) = .ok unprot := by
      unfold kwGet
      rcases hun with h | ⟨h, rfl⟩ <;> rw [h] <;> rfl
    have hpt : entryParts.protText (.str ph) = .ok hs := by
      simp [entryParts.protText, b64dEncDec, ha, h0, hu, Bind.bind, Except.bind]
    have hpd : entryParts.protVal hs = .ok prot := by
      simp [entryParts.protVal, hne, hj]
    have hkp : kwGet d "protected" (.str "") = .str ph := by simp [kwGet, hpr]
    simp only [entryParts, Bind.bind, Except.bind, hkp, strEncode, PyVal.getItem, hsg, hun', hpt, hpd, hupd]

theorem b64d_chars {b out : Bytes} (h : b64d b = .ok out) : ∀ c ∈ b, c < 128 ∧ c ≠ 46 := by
  obtain ⟨d, ⟨k, rfl, hd, -⟩ | ⟨k, rfl, hd, -, -⟩, -⟩ := (C03_accepts_iff _ _).mp h
  · intro c hc
    rcases List.mem_append.mp hc with hc | hc
    · exact urlAlphabet_lt c (hd c hc)
    · rw [List.eq_of_mem_replicate hc]; decide
  · intro c hc
    rcases List.mem_append.mp hc with hc | hc
    · rcases List.mem_append.mp hc with hc | hc
      · exact urlAlphabet_lt c (hd c hc)
      · rw [List.mem_singleton.mp hc]; decide
    · rw [List.eq_of_mem_replicate hc]; decide

theorem asciiEncode_of_b64d {s : String} {b : Bytes} (h : b64d (utf8Encode s) = .ok b) :
    asciiEncode s = .ok (utf8Encode s) := by
  obtain ⟨s', hs'⟩ := asciiDecode_of_lt (fun c hc => (b64d_chars h c hc).1)
  have h1 := asciiEncode_decode hs'
  have h2 := (asciiEncode_utf8 h1).1
  have h3 := utf8Decode_encode s
  rw [← h2, utf8Decode_encode s'] at h3
  rw [← Except.ok.inj h3, h2, h1]

theorem first_dot {a : UInt8} : ∀ {s t X Y : Bytes}, a ∉ s → a ∉ t → s ++ a :: X = t ++ a :: Y →
    s = t ∧ X = Y
  | [], [], _, _, _, _, h => by simpa using h
  | [], b :: t, _, _, _, ht, h => by
      simp only [List.nil_append, List.cons_append, List.cons.injEq] at h
      exact absurd (by simp [h.1]) ht
  | b :: s, [], _, _, hs, _, h => by
      simp only [List.nil_append, List.cons_append, List.cons.injEq] at h
      exact absurd (by simp [h.1]) hs
  | b :: s, c :: t, _, _, hs, ht, h => by
      simp only [List.cons_append, List.cons.injEq] at h
      simp only [List.mem_cons, not_or] at hs ht
      have := first_dot hs.2 ht.2 h.2
      simp [h.1, this]

theorem token_parts {jws s0 s1 a b c : Bytes} {hdr : PyVal} {p sig : Bytes}
    (h : Token jws s0 s1 hdr p sig) (hj : jws = a ++ 46 :: b ++ 46 :: c) (ha : (46 : UInt8) ∉ a) :
    s0 = a ∧ s1 = b := by
  obtain ⟨⟨s2, ht, -, h2⟩, ⟨h0, h1⟩, -, -⟩ := h
  rw [hj] at ht
  simp only [List.append_assoc, List.cons_append] at ht
  obtain ⟨rfl, ht'⟩ := first_dot ha h0 ht
  have hc := congrArg (List.count 46) ht'
  simp only [List.count_append, List.count_cons_self, List.count_eq_zero_of_not_mem h1,
    List.count_eq_zero_of_not_mem h2] at hc
  have hb : (46 : UInt8) ∉ b := List.count_eq_zero.mp (by omega)
  exact ⟨rfl, (first_dot hb h1 ht').1.symm⟩

theorem effKeys_entry {E : Env} {o' : Jwx} {prot unprot : PyDict} {keys l : List Key}
    (hoj : ∀ k, o'.jwk = some k ↔ ∃ v, Merged prot unprot "jwk" = some v ∧ EmbeddedKey E v k) :
    EffKeys o' keys l ↔ EntryKeys E prot unprot keys l := by
  unfold EffKeys EntryKeys
  constructor
  · rintro (h | ⟨h, k, hk, rfl⟩)
    · exact .inl h
    · obtain ⟨v, hv, he⟩ := (hoj _).mp hk
      exact .inr ⟨h, v, k, hv, he, rfl⟩
  · rintro (h | ⟨h, v, k, hv, he, rfl⟩)
    · exact .inl h
    · exact .inr ⟨h, k, (hoj _).mpr ⟨v, hv, he⟩, rfl⟩

theorem wantedKid_merged {own prot unprot : PyDict} {kid : PyVal}
    (hok : PyDict.get? own "kid" = Merged prot unprot "kid") :
    WantedKid own prot kid ↔ kid = (Merged prot unprot "kid").getD .none := by
  unfold WantedKid
  rw [hok]
  rcases h : Merged prot unprot "kid" with _ | v
  · have : PyDict.get? prot "kid" = none := by
      unfold Merged at h
      rcases hp : PyDict.get? prot "kid" with _ | w
      · rfl
      · simp [hp] at h
    simp [this]
  · simp only [Option.some.injEq, reduceCtorEq, false_and, or_false, Option.getD_some]
    exact eq_comm

/-- Exactly which entries are accepted; the object does not matter. -/
theorem verifyEntry_iff (E : Env) (o : Jwx) (payload sign : PyVal) (keys : List Key) (an : Bool)
    (sigalg m : PyVal) :
    (o.verifyEntry E payload sign keys an sigalg).1 = .ok m ↔
    EntryVerified E keys an sigalg payload sign m := by
  constructor
  · intro h
    unfold Jwx.verifyEntry at h
    split at h
    · simp at h
    rename_i tok kw hep
    obtain ⟨ph, pl, sg, prot, unprot, hb, hs, hse, rfl, rfl, ha, h0, hu, hj, hupd⟩ :=
      (entryParts_iff _ _ _ _).mp hep
    split at h
    · simp at h
    rename_i o' hre
    unfold Jwx.verifyCompact at h
    simp only at h
    obtain ⟨⟨m', ok⟩, hv, hm'⟩ : ∃ r, (o'.verifyVerbose E (utf8Encode ph ++ 46 :: utf8Encode pl ++
        46 :: utf8Encode sg) keys an sigalg).1 = .ok r ∧ r.1 = m := by
      rcases hr : (o'.verifyVerbose E (utf8Encode ph ++ 46 :: utf8Encode pl ++
        46 :: utf8Encode sg) keys an sigalg).1 with e | r
      · rw [hr] at h; simp [Except.map] at h
      · rw [hr] at h
        simp only [Except.map, Except.ok.injEq] at h
        exact ⟨r, rfl, h⟩
    simp only at hm'
    subst hm'
    obtain ⟨jwt, hdr, hun, hl, hh, hm, hcase⟩ := verifyVerbose_ok hv
    obtain ⟨s0, s1, s2, hb', p, sig, hb64, hpart, htok⟩ := token_of_unpack hun hl
    rw [hh] at htok
    have hM := (message_iff _ jwt hdr p m' hh (by rw [hpart]; rfl)).mp hm
    -- the segments
    obtain ⟨rfl, rfl⟩ := token_parts htok rfl (fun hc => (b64d_chars h0 _ hc).2 rfl)
    have hhdr : prot = .dict hdr := by
      obtain ⟨hb2, hs2, e1, e2, e3⟩ := htok.header
      rw [h0] at e1
      obtain rfl := Except.ok.inj e1
      rw [hu] at e2
      obtain rfl := Except.ok.inj e2
      rw [hj] at e3
      exact Except.ok.inj e3
    subst hhdr
    obtain rfl := (Except.ok.inj hupd).symm
    have hkw := get?_update hdr unprot (jsonLoads_nodup hj)
    have hal : ∃ alg, PyDict.get? hdr "alg" = some alg := by
      rcases hcase with ⟨-, -, ⟨v, hv, -⟩, -⟩ | ⟨_, name, _, _, _, _, _, -, h, -⟩
      · exact ⟨v, hv⟩
      · exact ⟨_, h⟩
    obtain ⟨alg, hal⟩ := hal
    have hkal : PyDict.get? (PyDict.update unprot hdr) "alg" = some alg := by
      rw [hkw]; simp [Merged, hal]
    obtain ⟨hself, hjwk⟩ := (reinit_iff hkal).mp ⟨o', hre⟩
    obtain ⟨hoa, hok, hoj⟩ := reinit_state hkal hre
    rw [hkw] at hself hok
    refine ⟨ph, pl, sg, hdr, unprot, p, sig, hse, rfl, htok, hM, hself,
      fun v hv => hjwk v (by rw [hkw]; exact hv), ?_⟩
    rcases hcase with ⟨-, han, hn, -⟩ | ⟨k, _, _, _, _, _, _, rfl, -⟩
    · exact .inl ⟨han, hn⟩
    · obtain ⟨t0, t1, hdr', p', sig', name, a, kid, l, htok', hal', hsup, -, hsig, heff, hkid, hfa,
        -⟩ := (verifyVerbose_iff _ _ _ _ _ _ _ _).mp hv
      obtain ⟨rfl, rfl, hd, rfl, rfl⟩ := token_unique htok htok'
      obtain rfl := PyVal.dict.inj hd
      refine .inr ⟨name, a, l, k, hal', hsup, hsig, (effKeys_entry ?_).mp heff, ?_⟩
      · intro k; rw [hoj k, hkw]
      · rw [← (wantedKid_merged hok).mp hkid]
        exact hfa
  · rintro ⟨ph, pl, sg, prot, unprot, p, sig, hse, rfl, htok, hM, hself, hjwk, hcase⟩
    obtain ⟨hb, hs, h0, hu, hj⟩ := htok.header
    have hkw := get?_update prot unprot (jsonLoads_nodup hj)
    have hep := (entryParts_iff (.str pl) sign _ (PyDict.update unprot prot)).mpr
      ⟨ph, pl, sg, .dict prot, unprot, hb, hs, hse, rfl, rfl, asciiEncode_of_b64d h0, h0, hu, hj, rfl⟩
    have hal : ∃ alg, PyDict.get? prot "alg" = some alg := by
      rcases hcase with ⟨-, v, hv, -⟩ | ⟨name, _, _, _, h, -⟩
      · exact ⟨v, hv⟩
      · exact ⟨_, h⟩
    obtain ⟨alg, hal⟩ := hal
    have hkal : PyDict.get? (PyDict.update unprot prot) "alg" = some alg := by
      rw [hkw]; simp [Merged, hal]
    obtain ⟨o', hre⟩ := (reinit_iff (E := E) (o := o) hkal).mpr ⟨by rw [hkw]; exact hself,
      fun v hv => hjwk v (by rw [← hkw]; exact hv)⟩
    obtain ⟨hoa, hok, hoj⟩ := reinit_state hkal hre
    rw [hkw] at hok
    unfold Jwx.verifyEntry
    rw [hep]
    simp only [hre]
    unfold Jwx.verifyCompact
    simp only
    suffices hx : ∃ r, (o'.verifyVerbose E (utf8Encode ph ++ 46 :: utf8Encode pl ++
        46 :: utf8Encode sg) keys an sigalg).1 = .ok (m, r) by
      obtain ⟨r, hr⟩ := hx
      rw [hr]; rfl
    rcases hcase with ⟨rfl, v, hv, hn⟩ | ⟨name, a, l, k, hal', hsup, hsig, hkeys, hfa⟩
    · refine ⟨none, ?_⟩
      exact (C12_allowed E o' _ keys sigalg _ _ _ _ _ htok v hv hn m none).mpr ⟨rfl, hM⟩
    · refine ⟨some k, (verifyVerbose_iff _ _ _ _ _ _ _ _).mpr
        ⟨_, _, prot, p, sig, name, a, _, l, htok, hal', hsup, ?_, hsig,
          (effKeys_entry (fun k => by rw [hoj k, hkw])).mpr hkeys,
          (wantedKid_merged hok).mpr rfl, hfa, hM⟩⟩
      intro v hv
      rw [hoa] at hv
      rw [hal] at hal'
      rw [← Option.some.inj hv, Option.some.inj hal']

/-! ### The whole token -/

theorem entryVerified_congr {E : Env} {keys : List Key} {an : Bool} {sigalg payload s s' m : PyVal}
    (h : ∀ ph sg un, SigEntry s ph sg un ↔ SigEntry s' ph sg un) :
    EntryVerified E keys an sigalg payload s m ↔ EntryVerified E keys an sigalg payload s' m := by
  unfold EntryVerified
  simp only [h]

theorem not_entry_str {E : Env} {keys : List Key} {an : Bool} {sigalg payload m : PyVal} {t : String} :
    ¬ EntryVerified E keys an sigalg payload (.str t) m := by
  rintro ⟨_, _, _, _, _, _, _, ⟨_, h, -⟩, -⟩
  simp at h

theorem signEntries_iff {E : Env} {keys : List Key} {an : Bool} {sigalg payload : PyVal} (d : PyDict)
    (ms : List PyVal) :
    (∃ l, signEntries d = .ok l ∧ List.Forall₂ (EntryVerified E keys an sigalg payload) l ms) ↔
    ∃ l, Listed d l ∧ List.Forall₂ (EntryVerified E keys an sigalg payload) l ms := by
  have hflat : ∀ (g : String → List (String × PyVal)),
      (∀ k, g k = match PyDict.get? d k with | some v => [(k, v)] | none => []) →
      ∀ m, EntryVerified E keys an sigalg payload
        (.dict (g "protected" ++ g "header" ++ g "signature")) m ↔
      EntryVerified E keys an sigalg payload (.dict d) m := by
    intro g hg m
    refine entryVerified_congr fun ph sg un => ?_
    have hp : ∀ n, n = "protected" ∨ n = "header" ∨ n = "signature" →
        PyDict.get? (g "protected" ++ g "header" ++ g "signature") n = PyDict.get? d n := by
      intro n hn
      rw [hg, hg, hg]
      rcases hn with rfl | rfl | rfl <;>
      rcases PyDict.get? d "protected" with _ | v1 <;>
      rcases PyDict.get? d "header" with _ | v2 <;>
      rcases PyDict.get? d "signature" with _ | v3 <;>
      simp [PyDict.get?, List.lookup_cons]
    unfold SigEntry
    simp only [PyVal.dict.injEq, exists_eq_left', hp _ (.inl rfl), hp _ (.inr (.inl rfl)),
      hp _ (.inr (.inr rfl))]
  constructor
  · rintro ⟨l, h, hf⟩
    unfold signEntries at h
    split at h
    · rename_i l' hl'
      cases h
      exact ⟨l, .inl hl', hf⟩
    · rename_i m' hm'
      cases h
      cases m' with
      | nil => exact ⟨[], .inr (.inl ⟨rfl, .inl hm'⟩), hf⟩
      | cons x m' =>
        cases hf with
        | cons h1 h2 => exact (not_entry_str h1).elim
    · rename_i t ht
      cases h
      cases hc : t.toList with
      | nil =>
        have : t = "" := String.toList_inj.mp (by rw [hc]; rfl)
        subst this
        rw [hc] at hf
        exact ⟨[], .inr (.inl ⟨rfl, .inr ht⟩), hf⟩
      | cons x m' =>
        rw [hc] at hf
        cases hf with
        | cons h1 h2 => exact (not_entry_str h1).elim
    · simp at h
    · rename_i hn
      cases h
      refine ⟨[.dict d], .inr (.inr ⟨hn, rfl⟩), ?_⟩
      cases hf with
      | cons h1 h2 =>
        cases h2
        exact .cons ((hflat _ (fun _ => rfl) _).mp h1) .nil
  · rintro ⟨l, h | ⟨rfl, h⟩ | ⟨h, rfl⟩, hf⟩
    · exact ⟨l, by simp [signEntries, h], hf⟩
    · refine ⟨[], ?_, hf⟩
      rcases h with h | h <;> simp [signEntries, h]
    · cases hf with
      | cons h1 h2 =>
        cases h2
        refine ⟨_, by simp only [signEntries, h]; rfl, .cons ((hflat _ (fun _ => rfl) _).mpr h1) .nil⟩

theorem combined_cons_ne {x m : PyVal} {ms : List PyVal} (hx : x ≠ .none) :
    Combined (x :: ms) m ↔ m = x ∧ ∀ y ∈ ms, x.pyEq y = true := by
  constructor
  · rintro (⟨h, -⟩ | ⟨pre, post, h, hm, hp, hq⟩)
    · exact absurd (h x (by simp)) hx
    · cases pre with
      | nil =>
        simp only [List.nil_append, List.cons.injEq] at h
        obtain ⟨rfl, rfl⟩ := h
        exact ⟨rfl, hq⟩
      | cons y pre =>
        simp only [List.cons_append, List.cons.injEq] at h
        exact absurd (h.1.trans (hp y (by simp))) hx
  · rintro ⟨rfl, h⟩
    exact .inr ⟨[], ms, rfl, hx, by simp, h⟩

theorem combined_cons_none {m : PyVal} {ms : List PyVal} :
    Combined (.none :: ms) m ↔ Combined ms m := by
  constructor
  · rintro (⟨h, hm⟩ | ⟨pre, post, h, hm, hp, hq⟩)
    · exact .inl ⟨fun x hx => h x (by simp [hx]), hm⟩
    · cases pre with
      | nil =>
        simp only [List.nil_append, List.cons.injEq] at h
        exact absurd h.1.symm hm
      | cons y pre =>
        simp only [List.cons_append, List.cons.injEq] at h
        exact .inr ⟨pre, post, h.2, hm, fun x hx => hp x (by simp [hx]), hq⟩
  · rintro (⟨h, hm⟩ | ⟨pre, post, h, hm, hp, hq⟩)
    · exact .inl ⟨by simpa using h, hm⟩
    · exact .inr ⟨.none :: pre, post, by simp [h], hm, by simpa using hp, hq⟩

theorem verifyEntries_iff (E : Env) (payload : PyVal) (keys : List Key) (an : Bool) (sigalg : PyVal)
    (l : List PyVal) : ∀ (o : Jwx) (claim m : PyVal),
    (o.verifyEntries E payload keys an sigalg claim l).1 = .ok m ↔
    ∃ ms, List.Forall₂ (EntryVerified E keys an sigalg payload) l ms ∧
      ((claim = .none ∧ Combined ms m) ∨
       (claim ≠ .none ∧ m = claim ∧ ∀ x ∈ ms, claim.pyEq x = true)) := by
  induction l with
  | nil =>
    intro o claim m
    simp only [Jwx.verifyEntries, Except.ok.injEq, List.forall₂_nil_left_iff, exists_eq_left]
    by_cases hc : claim = .none
    · subst hc
      constructor
      · rintro rfl; exact .inl ⟨rfl, .inl ⟨by simp, rfl⟩⟩
      · rintro (⟨-, ⟨-, h⟩ | ⟨pre, post, h, -⟩⟩ | ⟨h, -⟩)
        · exact h.symm
        · simp at h
        · exact absurd rfl h
    · constructor
      · rintro rfl; exact .inr ⟨hc, rfl, by simp⟩
      · rintro (⟨h, -⟩ | ⟨-, h, -⟩)
        · exact absurd h hc
        · exact h.symm
  | cons s l ih =>
    intro o claim m
    unfold Jwx.verifyEntries
    have hiff := verifyEntry_iff E o payload s keys an sigalg
    generalize o.verifyEntry E payload s keys an sigalg = r at hiff
    obtain ⟨r, o'⟩ := r
    rcases r with e | x
    · simp only [reduceCtorEq, false_iff, not_exists, not_and]
      rintro ms hf
      cases hf with
      | cons h1 h2 => simpa using (hiff _).mpr h1
    simp only [Except.ok.injEq] at hiff
    have hx := (hiff x).mp rfl
    by_cases hc : claim = .none
    · subst hc
      simp only [if_true, ne_eq, not_true_eq_false, false_and, or_false, true_and]
      rw [ih]
      constructor
      · rintro ⟨ms, hf, h⟩
        refine ⟨x :: ms, .cons hx hf, ?_⟩
        rcases h with ⟨rfl, h⟩ | ⟨hne, rfl, h⟩
        · exact combined_cons_none.mpr h
        · exact (combined_cons_ne hne).mpr ⟨rfl, h⟩
      · rintro ⟨ms, hf, h⟩
        cases hf with
        | @cons _ y _ ms h1 h2 =>
          obtain rfl := (hiff _).mpr h1
          refine ⟨ms, h2, ?_⟩
          by_cases hxn : x = .none
          · subst hxn; exact .inl ⟨rfl, combined_cons_none.mp h⟩
          · exact .inr ⟨hxn, (combined_cons_ne hxn).mp h⟩
    · simp only [hc, if_false, false_and, ne_eq, not_false_eq_true, true_and, false_or]
      by_cases hp : claim.pyEq x = true
      · simp only [hp, if_true]
        rw [ih]
        simp only [hc, false_and, ne_eq, not_false_eq_true, true_and, false_or]
        constructor
        · rintro ⟨ms, hf, rfl, h⟩
          exact ⟨x :: ms, .cons hx hf, rfl, by simpa [hp] using h⟩
        · rintro ⟨ms, hf, rfl, h⟩
          cases hf with
          | @cons _ y _ ms h1 h2 => exact ⟨ms, h2, rfl, fun z hz => h z (by simp [hz])⟩
      · simp only [hp]
        simp only [Bool.false_eq_true, if_false, reduceCtorEq, false_iff, not_exists, not_and]
        rintro ms hf rfl h
        cases hf with
        | @cons _ y _ ms h1 h2 =>
          obtain rfl := (hiff _).mpr h1
          exact hp (h x (by simp))

end Verif
