import Verif.Props.Jwt
import Verif.Proofs.Jws
/-
An exact characterisation of `verify_compact_verbose` returning with a key, in the terms of
`Spec/Jws`.
-/

namespace Verif
open Spec

theorem joinDot3 (a b c : Bytes) : joinDot [a, b, c] = a ++ 46 :: b ++ 46 :: c := by
  simp [joinDot]

theorem b64d_nil : b64d [] = .ok [] := by decide

theorem unpack_of_token {jws s0 s1 : Bytes} {hdr : PyVal} {payload sig : Bytes}
    (h : Token jws s0 s1 hdr payload sig) :
    ∃ s2 hb, Jwt.unpack jws = .ok ⟨hdr, [s0, s1, s2], [hb, payload, sig]⟩ := by
  obtain ⟨⟨s2, rfl, h2, hd2⟩, ⟨hd0, hd1⟩, ⟨hb, hs, h0, hu, hj⟩, h1⟩ := h
  refine ⟨s2, hb, (C09_unpack_iff _ _).mpr ⟨by simp, ⟨by simp, joinDot3 _ _ _, ?_⟩, ?_, ?_⟩⟩
  · simp only [List.mem_cons, List.not_mem_nil, or_false]
    rintro s (rfl | rfl | rfl) <;> assumption
  · exact .cons h0 (.cons h1 (.cons h2 .nil))
  · exact ⟨hb, [payload, sig], hs, rfl, hu, hj⟩

theorem token_of_unpack {jws : Bytes} {jwt : Jwt} (h : Jwt.unpack jws = .ok jwt)
    (hl : jwt.part.length = 3) :
    ∃ s0 s1 s2 hb payload sig, jwt.b64part = [s0, s1, s2] ∧ jwt.part = [hb, payload, sig] ∧
      Token jws s0 s1 jwt.headers payload sig := by
  obtain ⟨-, ⟨-, hj, hnd⟩, hf, p0, rest, s, hp, hu, hjs⟩ := (C09_unpack_iff _ _).mp h
  have hl2 := hf.length_eq
  obtain ⟨hdrs, b, p⟩ := jwt
  simp only at *
  match p, hl with
  | [hb, payload, sig], _ =>
    match b, hl2 with
    | [s0, s1, s2], _ =>
      obtain ⟨rfl, rfl⟩ := List.cons.inj hp
      simp only [List.forall₂_cons, List.forall₂_nil_right_iff, and_true] at hf
      refine ⟨s0, s1, s2, hb, payload, sig, rfl, rfl, ⟨s2, ?_, hf.2.2, hnd _ (by simp)⟩,
        ⟨hnd _ (by simp), hnd _ (by simp)⟩, ⟨hb, s, hf.1, hu, hjs⟩, hf.2.1⟩
      rw [← hj, joinDot3]

theorem token_unique {jws s0 s1 t0 t1 : Bytes} {h h' : PyVal} {p p' sig sig' : Bytes}
    (a : Token jws s0 s1 h p sig) (b : Token jws t0 t1 h' p' sig') :
    s0 = t0 ∧ s1 = t1 ∧ h = h' ∧ p = p' ∧ sig = sig' := by
  obtain ⟨_, _, ha⟩ := unpack_of_token a
  obtain ⟨_, _, hb⟩ := unpack_of_token b
  rw [ha] at hb
  simp only [Except.ok.injEq, Jwt.mk.injEq, List.cons.injEq] at hb
  tauto

theorem asText_asUnicode (p : Bytes) : AsText p (asUnicode p) := by
  unfold asUnicode
  split
  · rename_i s h
    exact .inl ⟨s, (utf8Encode_of_decode h).symm, rfl⟩
  · rename_i e h
    refine .inr ⟨?_, rfl⟩
    rintro s rfl
    simp [utf8Decode_encode] at h

theorem asText_iff (p : Bytes) (t : PyVal) : AsText p t ↔ t = asUnicode p := by
  constructor
  · rintro (⟨s, rfl, rfl⟩ | ⟨h, rfl⟩)
    · simp [asUnicode, utf8Decode_encode]
    · unfold asUnicode
      split
      · rename_i s hs; exact absurd (utf8Encode_of_decode hs).symm (h s)
      · rfl
  · rintro rfl; exact asText_asUnicode p

theorem parses_iff (jb : Bytes → PyM PyVal) (p : Bytes) (r : PyM PyVal) :
    Parses jb (asUnicode p) r ↔ jsonLoadsVal jb (asUnicode p) = r := by
  unfold Parses
  unfold asUnicode
  split <;> simp [jsonLoadsVal]

theorem message_iff (jb : Bytes → PyM PyVal) (j : Jwt) (hdr : PyDict) (p : Bytes) (m : PyVal)
    (hh : j.headers = .dict hdr) (hp : j.part[1]? = some p) :
    j.payload jb = .ok m ↔ Message jb hdr p m := by
  have key : Message jb hdr p m ↔ ((CtyPlain hdr ∧ m = asUnicode p) ∨
     (CtyMayBeJson hdr ∧ (jsonLoadsVal jb (asUnicode p) = .ok m ∨
       ∃ e, jsonLoadsVal jb (asUnicode p) = .error e ∧ e.isValueError = true ∧ m = asUnicode p))) := by
    unfold Message
    constructor
    · rintro ⟨t, ht, h⟩
      rw [asText_iff] at ht
      subst ht
      simpa only [parses_iff] using h
    · intro h
      exact ⟨_, asText_asUnicode p, by simpa only [parses_iff] using h⟩
  rw [key]
  unfold Jwt.payload
  rw [hp, hh]
  simp only [PyVal.contains, PyDict.has, PyVal.getItem, Bind.bind, Except.bind]
  rcases hc : PyDict.get? hdr "cty" with _ | c
  · have h1 : ¬ CtyPlain hdr := by simp [CtyPlain, hc]
    have h2 : CtyMayBeJson hdr := .inl hc
    simp only [h1, h2, false_and, true_and, false_or, Option.isSome_none]
    simp only [Bool.false_eq_true, if_false]
    rcases hr : jsonLoadsVal jb (asUnicode p) with e | v
    · simp only [reduceCtorEq, false_or, Except.error.injEq, exists_eq_left']
      by_cases he : e.isValueError = true
      · simp [he, eq_comm]
      · simp [he]
    · simp
  · simp only [Option.isSome_some, if_true]
    rcases c with _ | _ | _ | _ | s | b | _ | _ <;> simp only [PyVal.lower]
    case str =>
      by_cases hs : pyLower s = "jwt"
      · have h1 : ¬ CtyPlain hdr := by simp [CtyPlain, hc, hs]
        have h2 : CtyMayBeJson hdr := .inr ⟨s, hc, hs⟩
        simp only [h1, h2, false_and, true_and, false_or, hs, bne_self_eq_false, Bool.false_eq_true,
          if_false]
        rcases hr : jsonLoadsVal jb (asUnicode p) with e | v
        · simp only [reduceCtorEq, false_or, Except.error.injEq, exists_eq_left']
          by_cases he : e.isValueError = true
          · simp [he, eq_comm]
          · simp [he]
        · simp
      · have h1 : CtyPlain hdr := .inl ⟨s, hc, hs⟩
        have h2 : ¬ CtyMayBeJson hdr := by simp [CtyMayBeJson, hc, hs]
        have h3 : (PyVal.str (pyLower s) != .str "jwt") = true := by simpa using hs
        simp only [h1, h2, h3, if_true, true_and, false_and, or_false, Except.ok.injEq]
        exact eq_comm
    case bytes =>
      have h1 : CtyPlain hdr := .inr ⟨b, hc⟩
      have h2 : ¬ CtyMayBeJson hdr := by simp [CtyMayBeJson, hc]
      simp only [h1, h2, true_and, false_and, or_false]
      simp
      exact eq_comm
    all_goals
      have h1 : ¬ CtyPlain hdr := by simp [CtyPlain, hc]
      have h2 : ¬ CtyMayBeJson hdr := by simp [CtyMayBeJson, hc]
      simp [h1, h2]

theorem message_unique {jb : Bytes → PyM PyVal} {hdr : PyDict} {p : Bytes} {m m' : PyVal}
    (h : Message jb hdr p m) (h' : Message jb hdr p m') : m = m' := by
  have a := (message_iff jb ⟨.dict hdr, [], [[], p]⟩ hdr p m rfl rfl).mpr h
  have b := (message_iff jb ⟨.dict hdr, [], [[], p]⟩ hdr p m' rfl rfl).mpr h'
  rw [a] at b
  exact Except.ok.inj b

theorem wantedKid_iff (o : Jwx) (jwt : Jwt) (hdr : PyDict) (hj : o.jwt = some jwt)
    (hh : jwt.headers = .dict hdr) (kid : PyVal) :
    o.wantedKid = .ok kid ↔ WantedKid o.dict hdr kid := by
  unfold Jwx.wantedKid WantedKid
  rcases hk : PyDict.get? o.dict "kid" with _ | v
  · simp only [hj, hh, PyVal.getItem]
    rcases hk' : PyDict.get? hdr "kid" with _ | v <;> simp [eq_comm]
  · simp [eq_comm]

theorem wantedKid_exists (own hdr : PyDict) : ∃ kid, WantedKid own hdr kid := by
  unfold WantedKid
  rcases PyDict.get? own "kid" with _ | v
  · rcases PyDict.get? hdr "kid" with _ | v <;> simp
  · simp

theorem wantedKid_unique {own hdr : PyDict} {a b : PyVal} (ha : WantedKid own hdr a)
    (hb : WantedKid own hdr b) : a = b := by
  unfold WantedKid at *
  rcases h : PyDict.get? own "kid" with _ | v <;> rcases h' : PyDict.get? hdr "kid" with _ | w <;>
    simp_all

theorem get?_set_alg_kid (d : PyDict) (v : PyVal) :
    PyDict.get? (PyDict.set d "alg" v) "kid" = PyDict.get? d "kid" := by
  rw [PyDict.get?_set]; simp

theorem wantedKid_set (own hdr : PyDict) (v kid : PyVal) :
    WantedKid (PyDict.set own "alg" v) hdr kid ↔ WantedKid own hdr kid := by
  unfold WantedKid; rw [get?_set_alg_kid]

/-- The keys that verification tries, in order. -/
theorem mem_picked {a : SigAlg} {name kt : String} {kid : PyVal} (hne : name ≠ "")
    (hkt : ∀ v, ktyMatches kt v = true ↔ TypeFor a v) (k : Key) :
    (ktyMatches kt k.kty && keyPasses kid "" (.str name) k) = true ↔ Suitable a name kid k := by
  rw [Bool.and_eq_true, hkt, keyPasses_iff kid "" name hne]
  simp [Suitable]

theorem keySource_cases {E : Env} {o : Jwx} {keys : List Key} {src : List JKey}
    (h : o.keySource E keys = .ok src) {l : List Key} (hl : src = l.map JKey.key) :
    EffKeys o keys l ∨ l = [] := by
  unfold Jwx.keySource at h
  split at h
  · rename_i hk
    have hk : keys = [] := by simpa using hk
    unfold Jwx.getKeys at h
    rcases hjk : o.jwk with _ | k
    swap
    · simp only [hjk, Except.ok.injEq] at h
      rw [← h] at hl
      cases l with
      | nil => exact .inr rfl
      | cons k' l =>
        simp only [List.map_cons, List.cons.injEq] at hl
        have hl2 : l = [] := by simpa using hl.2.symm
        rw [hl2]
        exact .inl (.inr ⟨hk, k', by rw [hjk, hl.1], rfl⟩)
    · right
      simp only [hjk] at h
      split at h
      · simp only [Bind.bind] at h
        obtain ⟨t, -, h⟩ := bind_ok_iff.mp h
        obtain ⟨_, -, h⟩ := bind_ok_iff.mp h
        obtain ⟨d, -, h⟩ := bind_ok_iff.mp h
        cases h
        cases l with
        | nil => rfl
        | cons x l => cases d <;> simp at hl
      · split at h <;> cases h
        · cases l with
          | nil => rfl
          | cons x l => simp at hl
        · cases l with
          | nil => rfl
          | cons x l => simp at hl
  · rename_i hk
    cases h
    have : keys = l := List.map_injective_iff.mpr (fun a b h => by simpa using h) hl
    exact .inl (.inl ⟨by simpa using hk, this.symm⟩)

theorem keySource_of_eff {E : Env} {o : Jwx} {keys l : List Key} (h : EffKeys o keys l) :
    o.keySource E keys = .ok (l.map JKey.key) := by
  unfold Jwx.keySource
  rcases h with ⟨hk, rfl⟩ | ⟨rfl, k, hj, rfl⟩
  · simp [hk]
  · simp [Jwx.getKeys, hj]

theorem filter_split {α : Type} (p : α → Bool) : ∀ (l pre : List α) (k : α) (post : List α),
    l.filter p = pre ++ k :: post →
    ∃ l1 l2, l = l1 ++ k :: l2 ∧ l1.filter p = pre ∧ l2.filter p = post ∧ p k = true
  | [], pre, k, post, h => by simp at h
  | x :: l, pre, k, post, h => by
    by_cases hx : p x = true
    · rw [List.filter_cons_of_pos hx] at h
      cases pre with
      | nil =>
        simp only [List.nil_append, List.cons.injEq] at h
        obtain ⟨rfl, h⟩ := h
        exact ⟨[], l, rfl, rfl, h, hx⟩
      | cons y pre =>
        simp only [List.cons_append, List.cons.injEq] at h
        obtain ⟨rfl, h⟩ := h
        obtain ⟨l1, l2, h1, h2, h3, h4⟩ := filter_split p l pre k post h
        exact ⟨x :: l1, l2, by simp [h1], by simp [hx, h2], h3, h4⟩
    · rw [List.filter_cons_of_neg hx] at h
      obtain ⟨l1, l2, h1, h2, h3, h4⟩ := filter_split p l pre k post h
      exact ⟨x :: l1, l2, by simp [h1], by simp [hx, h2], h3, h4⟩

/-- The loop over the filtered keys finds the first accepting suitable key. -/
theorem loop_iff {E : Env} {a : SigAlg} {name kt : String} {kid : PyVal} (hne : name ≠ "")
    (hkt : ∀ v, ktyMatches kt v = true ↔ TypeFor a v) (l : List Key) (input sig : Bytes) (k : Key) :
    verifyLoop E a input sig
      ((l.filter fun k => ktyMatches kt k.kty).filter (keyPasses kid "" (.str name))) = .ok k ↔
    FirstAccepting E a name kid input sig l k := by
  rw [List.filter_filter]
  have hmem : ∀ k, (keyPasses kid "" (.str name) k && ktyMatches kt k.kty) = true ↔
      Suitable a name kid k := by
    intro k; rw [Bool.and_comm]; exact mem_picked hne hkt k
  constructor
  · intro h
    obtain ⟨pre, post, h1, h2, h3⟩ := verifyLoop_ok h
    obtain ⟨l1, l2, rfl, hl1, -, hk⟩ := filter_split _ _ _ _ _ h1
    refine ⟨l1, l2, rfl, (hmem k).mp hk, h2, fun x hx hs => ?_⟩
    exact h3 x (by rw [← hl1]; exact List.mem_filter.mpr ⟨hx, (hmem x).mpr hs⟩)
  · rintro ⟨pre, post, rfl, hs, hA, hpre⟩
    rw [List.filter_append, List.filter_cons, if_pos ((hmem k).mpr hs)]
    refine verifyLoop_of hA ?_
    intro x hx
    obtain ⟨hx, hp⟩ := List.mem_filter.mp hx
    exact hpre x hx ((hmem x).mp hp)

/-- When verification returns with a key, exactly. -/
theorem verifyVerbose_iff (E : Env) (o : Jwx) (jws : Bytes) (keys : List Key) (an : Bool)
    (sigalg m : PyVal) (k : Key) :
    (o.verifyVerbose E jws keys an sigalg).1 = .ok (m, some k) ↔
    ∃ s0 s1 hdr payload sig name a kid l,
      Token jws s0 s1 (.dict hdr) payload sig ∧
      PyDict.get? hdr "alg" = some (.str name) ∧ SupportedAlg name a ∧
      (∀ v, PyDict.get? o.dict "alg" = some v → v = .str name) ∧
      (sigalg.truthy = true → sigalg = .str name) ∧
      EffKeys o keys l ∧ WantedKid o.dict hdr kid ∧
      FirstAccepting E a name kid (s0 ++ 46 :: s1) sig l k ∧
      Message E.jsonBytes hdr payload m := by
  constructor
  · intro h
    obtain ⟨jwt, hdr, hu, hl, hh, hm, h | ⟨k', name, a, src, ks, inp, sig, hk, hal, hsup, hown, hsig,
      hsrc, hks, hinp, hp2, hloop, -⟩⟩ := verifyVerbose_ok h
    · simp at h
    cases hk
    obtain ⟨s0, s1, s2, hb, payload, sg, hb64, hpart, htok⟩ := token_of_unpack hu hl
    rw [hh] at htok
    rw [hpart] at hp2
    simp only [List.getElem?_cons_succ, List.getElem?_cons_zero, Option.some.injEq] at hp2
    subst hp2
    simp only [Jwt.signInput, hb64, Except.ok.injEq] at hinp
    subst hinp
    obtain ⟨hnone, hne, kt, hkt, hty⟩ := supported_alg2keytype hsup
    set o' : Jwx := { o with jwt := some jwt, dict := PyDict.set o.dict "alg" (.str name) } with ho'
    have halg' : PyDict.get? o'.dict "alg" = some (.str name) := by
      rw [ho']; simp only; rw [PyDict.get?_set]; simp
    -- the source is a list of keys
    have hlst : ∃ l : List Key, src = l.map JKey.key := by
      unfold Jwx.pickKeys at hks
      simp only [PyVal.truthy, bne_self_eq_false, Bool.false_eq_true, if_false, PyVal.getItem, halg',
        Bind.bind, Except.bind, hkt] at hks
      rw [if_neg (by intro h; cases h; exact hnone (by decide))] at hks
      revert hks
      generalize hx : keysOfType kt src = x
      intro hks
      rcases x with e | x
      · simp at hks
      · exact keysOfType_ok hx
    obtain ⟨l, rfl⟩ := hlst
    obtain ⟨kid, hkid⟩ := wantedKid_exists o.dict hdr
    have hwk : o'.wantedKid = .ok kid :=
      (wantedKid_iff o' jwt hdr rfl hh kid).mpr (by rw [ho']; exact (wantedKid_set _ _ _ _).mpr hkid)
    have hpk := pickKeys_str o' name kt l "" hne (by intro h; subst h; exact hnone (by decide)) hkt
      (.str "") (.inr ⟨by decide, halg'⟩) kid hwk
    rw [hpk] at hks
    cases hks
    have hfa := (loop_iff hne hty l _ sg k).mp hloop
    rcases keySource_cases hsrc rfl with heff | rfl
    · exact ⟨s0, s1, hdr, payload, sg, name, a, kid, l, htok, hal, hsup, hown, hsig, heff, hkid, hfa,
        (message_iff _ jwt hdr payload m hh (by rw [hpart]; rfl)).mp hm⟩
    · obtain ⟨pre, post, h, -⟩ := hfa
      simp at h
  · rintro ⟨s0, s1, hdr, payload, sig, name, a, kid, l, htok, hal, hsup, hown, hsig, heff, hkid, hfa,
      hm⟩
    obtain ⟨s2, hb, hu⟩ := unpack_of_token htok
    obtain ⟨hnone, hne, kt, hkt, hty⟩ := supported_alg2keytype hsup
    have hnn : name ≠ "none" := by intro h; subst h; exact hnone (by decide)
    have htr : (PyVal.str name).truthy = true := by simp [PyVal.truthy, hne]
    unfold Jwx.verifyVerbose
    rw [hu]
    simp only [List.length_cons, List.length_nil, Nat.zero_add, Nat.reduceAdd, ne_eq,
      not_true_eq_false, if_false]
    set jwt : Jwt := ⟨.dict hdr, [s0, s1, s2], [hb, payload, sig]⟩ with hjwt
    have hha : jwt.headerAlg = .ok (.str name, false) := by
      simp [Jwt.headerAlg, hjwt, PyVal.getItem, hal, PyVal.lower, Bind.bind, Except.bind, hnone]
    rw [hha]
    have hconf : ({ o with jwt := some jwt } : Jwx).algConflict (.str name) = false := by
      unfold Jwx.algConflict
      split
      · rename_i v hv
        rw [hown v hv]; simp [PyVal.pyEq]
      · rfl
    have hsg : (sigalg.truthy && !sigalg.pyEq (.str name)) = false := by
      by_cases hs : sigalg.truthy = true
      · rw [hsig hs]; simp [PyVal.pyEq]
      · simp [hs]
    simp only
    rw [if_neg (by rw [hconf]; simp), if_neg (by rw [hsg]; simp)]
    set o' : Jwx := { o with jwt := some jwt, dict := PyDict.set o.dict "alg" (.str name) } with ho'
    have halg' : PyDict.get? o'.dict "alg" = some (.str name) := by
      rw [ho']; simp only; rw [PyDict.get?_set]; simp
    have hwk : o'.wantedKid = .ok kid :=
      (wantedKid_iff o' jwt hdr rfl rfl kid).mpr (by rw [ho']; exact (wantedKid_set _ _ _ _).mpr hkid)
    have hpk := pickKeys_str o' name kt l "" hne hnn hkt
      (.str "") (.inr ⟨by decide, halg'⟩) kid hwk
    have hsrc : o'.keySource E keys = .ok (l.map JKey.key) := keySource_of_eff heff
    have hloop := (loop_iff hne hty l _ sig k).mpr hfa
    have hks : ((l.filter fun k => ktyMatches kt k.kty).filter
        (keyPasses kid "" (.str name))).isEmpty = false := by
      by_contra hc
      simp only [Bool.not_eq_false, List.isEmpty_iff] at hc
      rw [hc] at hloop
      simp [verifyLoop] at hloop
    have hpay : jwt.payload E.jsonBytes = .ok m :=
      (message_iff _ jwt hdr payload m rfl rfl).mpr hm
    have hso : signerOf (.str name) = some (some a) := (signerOf_iff _ _).mpr ⟨name, rfl, hsup⟩
    simp only [hsrc, hpk, Bind.bind, Except.bind, hks, Bool.false_eq_true, if_false, hso,
      Jwt.signInput, List.getElem?_cons_succ, List.getElem?_cons_zero, hloop]
    rw [hjwt] at hpay
    rw [hpay]

end Verif
