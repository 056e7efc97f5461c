import Verif.Props.JwsState
/-
C124: `verify_json` rewrites the object it is called on, also when it refuses the token.
-/

namespace Verif
open Spec

/-- The first signature entry of the JSON serialization has readable headers: `prot` protected, `unprot` not.  `l` are the
other entries. -/
def Spec.FirstHeader (jws : String) (prot unprot : PyDict) (l : List PyVal) : Prop :=
  ∃ d pl s ph sg hb hs, jsonLoads jws = .ok (.dict d) ∧ PyDict.get? d "payload" = some (.str pl) ∧ Listed d (s :: l) ∧
    SigEntry s ph sg unprot ∧ asciiEncode ph = .ok (utf8Encode ph) ∧ b64d (utf8Encode ph) = .ok hb ∧
    utf8Decode hb = .ok hs ∧ jsonLoads hs = .ok (.dict prot)

theorem firstHeader_parts {jws : String} {prot unprot : PyDict} {l : List PyVal} (h : FirstHeader jws prot unprot l) :
    ∃ pl s ph sg hb hs, jsonParts jws = .ok (.str pl, s :: l) ∧ b64d (utf8Encode ph) = .ok hb ∧ utf8Decode hb = .ok hs ∧
      jsonLoads hs = .ok (.dict prot) ∧
      entryParts (.str pl) s = .ok (utf8Encode ph ++ 46 :: utf8Encode pl ++ 46 :: utf8Encode sg, PyDict.update unprot prot) := by
  obtain ⟨d, pl, s, ph, sg, hb, hs, hd, hp, hl, hse, ha, hb1, hs1, hj⟩ := h
  rcases hl with hl | ⟨h0, -⟩ | ⟨hn, hs0⟩
  · refine ⟨pl, s, ph, sg, hb, hs, ?_, hb1, hs1, hj, (entryParts_iff ..).mpr ⟨ph, pl, sg, .dict prot, unprot, hb, hs, hse, rfl, rfl, ha, hb1, hs1, hj, rfl⟩⟩
    simp only [jsonParts, hd, hp, signEntries, hl, Except.map]
  · cases h0
  · simp only [List.cons.injEq] at hs0
    obtain ⟨rfl, rfl⟩ := hs0
    let pick : String → PyDict := fun k => match PyDict.get? d k with | some v => [(k, v)] | none => []
    have hse' : SigEntry (.dict (pick "protected" ++ pick "header" ++ pick "signature")) ph sg unprot := by
      obtain ⟨d', hd', h1, h2, h3⟩ := hse
      cases hd'
      refine ⟨_, rfl, ?_⟩
      simp only [pick, h1, h2]
      rcases h3 with h3 | ⟨h3, rfl⟩
      · simp only [h3]; simp [PyDict.get?, List.lookup_cons]
      · simp only [h3]; simp [PyDict.get?, List.lookup_cons]
    refine ⟨pl, _, ph, sg, hb, hs, ?_, hb1, hs1, hj, (entryParts_iff ..).mpr ⟨ph, pl, sg, .dict prot, unprot, hb, hs, hse', rfl, rfl, ha, hb1, hs1, hj, rfl⟩⟩
    simp only [jsonParts, hd, hp, signEntries, hn, Except.map]
    rfl

theorem reinit_forget (E : Env) (o : Jwx) {kw : PyDict} (h : PyDict.get? kw "self" = none) :
    o.reinit E kw = ({ key := o.key } : Jwx).reinit E kw := by
  unfold Jwx.reinit
  simp [PyDict.has, h]

/-- **C124.** Of the object `verify_json` is called on nothing but the attribute `key` has any influence on the result or
remains. -/
theorem C124_forget (E : Env) (o : Jwx) (jws : String) (keys : List Key) (an : Bool) (sigalg : PyVal)
    {prot unprot : PyDict} {l : List PyVal} (hh : FirstHeader jws prot unprot l) (hself : Merged prot unprot "self" = none) :
    o.verifyJson E jws keys an sigalg = ({ key := o.key } : Jwx).verifyJson E jws keys an sigalg := by
  obtain ⟨pl, s, ph, sg, hb, hs, hp, -, -, hj, he⟩ := firstHeader_parts hh
  have hself : PyDict.get? (PyDict.update unprot prot) "self" = none := by rw [get?_update _ _ (jsonLoads_nodup hj)]; exact hself
  unfold Jwx.verifyJson
  simp only [hp]
  unfold Jwx.verifyEntries Jwx.verifyEntry
  simp only [he, reinit_forget E o hself]

/-- The object after `__init__(**kw)`, `kw` the merged header: what of the keywords it has. -/
theorem reinit_params (E : Env) (o : Jwx) {kw : PyDict} {alg : PyVal} (h : PyDict.get? kw "self" = none)
    (ha : PyDict.get? kw "alg" = some alg) :
    let o' := (o.reinit E kw).2
    o'.msg = (PyDict.get? kw "msg").getD .none ∧ o'.key = o.key ∧ o'.jwt = none ∧ PyDict.get? o'.dict "alg" = some alg ∧
    PyDict.get? o'.dict "jku" = PyDict.get? kw "jku" ∧
    ((o.reinit E kw).1 = .ok () → ∀ s ∈ ["x5u", "x5t", "kid", "typ", "cty"], PyDict.get? o'.dict s = PyDict.get? kw s) ∧
    (∀ e, (o.reinit E kw).1 = .error e → o'.jwk = none ∧ ∀ s, s ≠ "alg" → s ≠ "jku" → PyDict.get? o'.dict s = none) := by
  have hne : (stripInit kw).isEmpty = false := by
    have := get?_stripInit kw "alg" (by decide) (by decide)
    rw [ha] at this
    cases hs : stripInit kw with
    | nil => rw [hs] at this; simp [PyDict.get?] at this
    | cons _ _ => rfl
  have hd1 : ∀ s, PyDict.get? (jwsArgs1.foldl (initStep (stripInit kw)) []) s =
      if s = "alg" then some alg else if s = "jku" then PyDict.get? kw "jku" else none := by
    intro s
    have h1 := get?_stripInit kw "alg" (by decide) (by decide)
    have h2 := get?_stripInit kw "jku" (by decide) (by decide)
    simp only [jwsArgs1, List.foldl_cons, List.foldl_nil, initStep, h1, h2, ha]
    cases PyDict.get? kw "jku" with
    | none =>
      simp [PyDict.get?_set]
      split <;> simp_all [PyDict.get?]
    | some v =>
      simp [PyDict.get?_set]
      split <;> split <;> simp_all [PyDict.get?]
  have hd2 : ∀ s ∈ ["x5u", "x5t", "kid", "typ", "cty"], PyDict.get? (jwsArgs2.foldl (initStep (stripInit kw))
      (jwsArgs1.foldl (initStep (stripInit kw)) [])) s = PyDict.get? kw s := by
    intro s hs
    have key : ∀ l1 l2, jwsArgs2 = l1 ++ s :: l2 → s ∉ l1 → s ∉ l2 → s ≠ "x5c" → s ≠ "crit" → s ≠ "alg" → s ≠ "jku" → s ≠ "msg" → s ≠ "with_digest" →
        PyDict.get? (jwsArgs2.foldl (initStep (stripInit kw)) (jwsArgs1.foldl (initStep (stripInit kw)) [])) s = PyDict.get? kw s := by
      intro l1 l2 hl n1 n2 hx hc h1 h2 h3 h4
      have h0 := hd1 s
      rw [if_neg h1, if_neg h2] at h0
      rw [hl, List.foldl_append, List.foldl_cons, get?_foldl_initStep _ _ hx _ _ n2]
      have h5 := get?_foldl_initStep (stripInit kw) s hx l1 (jwsArgs1.foldl (initStep (stripInit kw)) []) n1
      rw [h0] at h5
      unfold initStep
      rw [get?_stripInit kw s h3 h4]
      cases hk : PyDict.get? kw s with
      | none => simp only [h1, if_false]; exact h5
      | some v => simp [hx, hc, PyDict.get?_set]
    simp only [List.mem_cons, List.not_mem_nil, or_false] at hs
    rcases hs with rfl | rfl | rfl | rfl | rfl
    · exact key [] _ rfl (by decide) (by decide) (by decide) (by decide) (by decide) (by decide) (by decide) (by decide)
    · exact key ["x5u"] _ rfl (by decide) (by decide) (by decide) (by decide) (by decide) (by decide) (by decide) (by decide)
    · exact key ["x5u", "x5t", "x5c"] _ rfl (by decide) (by decide) (by decide) (by decide) (by decide) (by decide) (by decide) (by decide)
    · exact key ["x5u", "x5t", "x5c", "kid"] _ rfl (by decide) (by decide) (by decide) (by decide) (by decide) (by decide) (by decide) (by decide)
    · exact key ["x5u", "x5t", "x5c", "kid", "typ"] _ rfl (by decide) (by decide) (by decide) (by decide) (by decide) (by decide) (by decide) (by decide)
  have hd3 : ∀ s ∈ ["alg", "jku"], PyDict.get? (jwsArgs2.foldl (initStep (stripInit kw))
      (jwsArgs1.foldl (initStep (stripInit kw)) [])) s = PyDict.get? (jwsArgs1.foldl (initStep (stripInit kw)) []) s := by
    intro s hs
    simp only [List.mem_cons, List.not_mem_nil, or_false] at hs
    rcases hs with rfl | rfl <;> exact get?_foldl_initStep _ _ (by decide) _ _ (by decide)
  have e1 := hd1 "alg"
  have e2 := hd1 "jku"
  have e3 := hd3 "alg" (by simp)
  have e4 := hd3 "jku" (by simp)
  rw [if_pos rfl] at e1
  rw [if_neg (by decide), if_pos rfl] at e2
  rw [e1] at e3
  rw [e2] at e4
  unfold Jwx.reinit Jwx.initBody
  simp only [PyDict.has, h, Option.isSome_none, Bool.false_eq_true, if_false, hne, kwGet]
  cases PyDict.get? (stripInit kw) "jwk" with
  | none => exact ⟨rfl, rfl, rfl, e3, e4, fun _ => hd2, by simp⟩
  | some v =>
    simp only
    cases jwkParam E v with
    | ok k => exact ⟨rfl, rfl, rfl, e3, e4, fun _ => hd2, by simp⟩
    | error e =>
      refine ⟨rfl, rfl, rfl, e1, e2, by simp, fun e' _ => ⟨rfl, fun s h1 h2 => ?_⟩⟩
      simp only [hd1, h1, h2, if_false]

theorem verifyJson_single {E : Env} {o : Jwx} {jws : String} {keys : List Key} {an : Bool} {sigalg : PyVal} {pl : String} {s : PyVal}
    {tok : Bytes} {kw : PyDict} (hp : jsonParts jws = .ok (.str pl, [s])) (he : entryParts (.str pl) s = .ok (tok, kw)) :
    o.verifyJson E jws keys an sigalg = match o.reinit E kw with
      | (.error e, o) => (.error e, o)
      | (.ok _, o) => o.verifyCompact E tok keys an sigalg := by
  unfold Jwx.verifyJson
  simp only [hp]
  unfold Jwx.verifyEntries Jwx.verifyEntry
  simp only [he]
  generalize o.reinit E kw = r
  obtain ⟨e | u, o'⟩ := r
  · rfl
  · simp only
    generalize o'.verifyCompact E tok keys an sigalg = r
    obtain ⟨e | m, o2⟩ := r
    · rfl
    · simp [Jwx.verifyEntries]

/-- **C124.** A refused token with one signature leaves its own header as the settings of the object: message, algorithm
and the other parameters are those the header names, those of the caller are gone. -/
theorem C124_refused (E : Env) (o : Jwx) (jws : String) (keys : List Key) (an : Bool) (sigalg : PyVal) {e : Exc}
    {prot unprot : PyDict} {name : String} (hh : FirstHeader jws prot unprot []) (hself : Merged prot unprot "self" = none)
    (hjwk : ∀ v, Merged prot unprot "jwk" = some v → ∃ k, EmbeddedKey E v k) (halg : PyDict.get? prot "alg" = some (.str name))
    (h : (o.verifyJson E jws keys an sigalg).1 = .error e) :
    let o' := (o.verifyJson E jws keys an sigalg).2
    o'.msg = (Merged prot unprot "msg").getD .none ∧ o'.key = o.key ∧
    ∀ s ∈ ["alg", "jku", "x5u", "x5t", "kid", "typ", "cty"], PyDict.get? o'.dict s = Merged prot unprot s := by
  obtain ⟨pl, s, ph, sg, hb, hs, hp, hb1, hs1, hj, he⟩ := firstHeader_parts hh
  have hkw := get?_update prot unprot (jsonLoads_nodup hj)
  have ha : PyDict.get? (PyDict.update unprot prot) "alg" = some (.str name) := by rw [hkw]; simp [Merged, halg]
  have hsf : PyDict.get? (PyDict.update unprot prot) "self" = none := by rw [hkw, hself]
  obtain ⟨o1, ho1⟩ := (reinit_iff (E := E) (o := o) ha).mpr ⟨hsf, fun v hv => hjwk v (by rw [← hkw]; exact hv)⟩
  have hr := reinit_params E o hsf ha
  rw [ho1] at hr
  obtain ⟨r1, r2, -, r4, r5, r6, -⟩ := hr
  have r6 := r6 rfl
  intro o'
  have ho' : o' = (o.verifyJson E jws keys an sigalg).2 := rfl
  clear_value o'
  have hv : o.verifyJson E jws keys an sigalg = o1.verifyCompact E (utf8Encode ph ++ 46 :: utf8Encode pl ++ 46 :: utf8Encode sg) keys an sigalg := by rw [verifyJson_single hp he, ho1]
  rw [hv] at h ho'
  unfold Jwx.verifyCompact at h ho'
  set tok := utf8Encode ph ++ 46 :: utf8Encode pl ++ 46 :: utf8Encode sg
  have h' : (o1.verifyVerbose E tok keys an sigalg).1 = .error e := by
    cases hr : (o1.verifyVerbose E tok keys an sigalg).1 with
    | ok x => simp only [hr] at h; cases h
    | error x => simp only [hr] at h; cases h; rfl
  obtain ⟨c1, c2, c3, c4⟩ := C85_failure E o1 tok keys an sigalg e h'
  have hst := (verify_state E o1 tok keys an sigalg).2
  simp only at r1 r2 r4 r5 r6
  rw [← ho'] at c1 c2 c3 c4 hst
  refine ⟨by rw [c1, r1, hkw], by rw [c2, r2], fun x hx => ?_⟩
  by_cases hxa : x = "alg"
  · subst hxa
    rw [← hkw, ha]
    rcases hst with hst | ⟨jwt, alg, hu, hal, -, hst⟩
    · rw [hst, r4]
    · rw [hst, PyDict.get?_set, if_pos rfl]
      have hh : jwt.headers = .dict prot := by
        obtain ⟨-, h2, h3, p0, rest, s', hp0, hs', hj'⟩ := (C09_unpack_iff tok jwt).mp hu
        have hnd : (46 : UInt8) ∉ utf8Encode ph := fun hc => (b64d_chars hb1 _ hc).2 rfl
        have e1 := splitDot_joinDot jwt.b64part h2.1 h2.2.2
        rw [h2.2.1, show tok = utf8Encode ph ++ 46 :: (utf8Encode pl ++ 46 :: utf8Encode sg) by simp [tok], splitDot_append _ _ hnd] at e1
        rw [← e1, hp0] at h3
        obtain ⟨h4, -⟩ := List.forall₂_cons.mp h3
        rw [hb1] at h4
        obtain rfl := Except.ok.inj h4
        rw [hs1] at hs'
        obtain rfl := Except.ok.inj hs'
        rw [hj] at hj'
        exact (Except.ok.inj hj').symm
      simp only [Jwt.headerAlg, hh, PyVal.getItem, halg] at hal
      rw [if_neg (by simp)] at hal
      simp only [Bind.bind] at hal
      obtain ⟨b, -, hal⟩ := bind_ok_iff.mp hal
      simp only [Except.ok.injEq, Prod.mk.injEq] at hal
      rw [hal.1]
  · rw [c4 x hxa, ← hkw]
    simp only [List.mem_cons, List.not_mem_nil, or_false] at hx
    rcases hx with rfl | rfl | hx
    · exact absurd rfl hxa
    · exact r5
    · exact r6 x (by simpa using hx)

/-- **C124.** If the header has a `jwk` that is none, the parameters are `alg` and `jku` of the header and nothing else. -/
theorem C124_bad_jwk (E : Env) (o : Jwx) (jws : String) (keys : List Key) (an : Bool) (sigalg : PyVal)
    {prot unprot : PyDict} {v alg : PyVal} {l : List PyVal} (hh : FirstHeader jws prot unprot l) (hself : Merged prot unprot "self" = none)
    (hjwk : Merged prot unprot "jwk" = some v) (hv : ∀ k, ¬ EmbeddedKey E v k) (halg : Merged prot unprot "alg" = some alg) :
    let r := o.verifyJson E jws keys an sigalg
    (∃ e, r.1 = .error e) ∧ r.2.msg = (Merged prot unprot "msg").getD .none ∧ r.2.key = o.key ∧ r.2.jwk = none ∧
    ∀ s, PyDict.get? r.2.dict s = if s = "alg" then some alg else if s = "jku" then Merged prot unprot "jku" else none := by
  obtain ⟨pl, s, ph, sg, hb, hs, hp, hb1, hs1, hj, he⟩ := firstHeader_parts hh
  have hkw := get?_update prot unprot (jsonLoads_nodup hj)
  have ha : PyDict.get? (PyDict.update unprot prot) "alg" = some alg := by rw [hkw, halg]
  have hsf : PyDict.get? (PyDict.update unprot prot) "self" = none := by rw [hkw, hself]
  have hno : ¬ ∃ o', o.reinit E (PyDict.update unprot prot) = (.ok (), o') := by
    rw [reinit_iff ha]
    rintro ⟨-, h⟩
    obtain ⟨k, hk⟩ := h v (by rw [hkw, hjwk])
    exact hv k hk
  have hr := reinit_params E o hsf ha
  have : o.verifyJson E jws keys an sigalg = ((o.reinit E (PyDict.update unprot prot)).1.map fun _ => PyVal.none, (o.reinit E (PyDict.update unprot prot)).2) := by
    unfold Jwx.verifyJson
    simp only [hp]
    unfold Jwx.verifyEntries Jwx.verifyEntry
    simp only [he]
    generalize o.reinit E (PyDict.update unprot prot) = r at hno
    obtain ⟨e | u, o'⟩ := r
    · rfl
    · exact absurd ⟨o', rfl⟩ hno
  rw [this]
  generalize o.reinit E (PyDict.update unprot prot) = r at hno hr
  obtain ⟨e | u, o'⟩ := r
  swap
  · exact absurd ⟨o', rfl⟩ hno
  obtain ⟨r1, r2, -, r4, r5, -, r7⟩ := hr
  obtain ⟨r8, r9⟩ := r7 e rfl
  refine ⟨⟨e, rfl⟩, r1.trans (by rw [hkw]), r2, r8, fun s => ?_⟩
  by_cases h1 : s = "alg"
  · subst h1; rw [if_pos rfl]; exact r4
  · rw [if_neg h1]
    by_cases h2 : s = "jku"
    · subst h2; rw [if_pos rfl, ← hkw]; exact r5
    · rw [if_neg h2]; exact r9 s h1 h2

/-- **C124.** So a refused token decides what the object signs next: its payload is the `msg` of the header. -/
theorem C124_signs (E : Env) (o : Jwx) (jws : String) (keys : List Key) (an : Bool) (sigalg : PyVal) {e : Exc}
    {prot unprot : PyDict} {name m : String} (hh : FirstHeader jws prot unprot []) (hself : Merged prot unprot "self" = none)
    (hjwk : ∀ v, Merged prot unprot "jwk" = some v → ∃ k, EmbeddedKey E v k) (halg : PyDict.get? prot "alg" = some (.str name))
    (hm : Merged prot unprot "msg" = some (.str m))
    (h : (o.verifyJson E jws keys an sigalg).1 = .error e) (keys' : List Key) (p' : PyDict) (rnd : Nat) (t : String)
    (ht : ((o.verifyJson E jws keys an sigalg).2.signCompact E keys' p' rnd).1 = .ok t) :
    ∃ s0 s2, utf8Encode t = s0 ++ 46 :: b64e (utf8Encode m) ++ 46 :: s2 := by
  obtain ⟨hmsg, -, -⟩ := C124_refused E o jws keys an sigalg hh hself hjwk halg h
  obtain ⟨alg, key, s0, s1, -, -, hs1, hc⟩ := signCompact_ok ht
  rw [hmsg, hm] at hs1
  simp only [Option.getD_some, b64encodeItem, Except.ok.injEq] at hs1
  subst hs1
  rcases hc with ⟨-, -, hc⟩ | ⟨_, _, _, _, _, _, sig, -, -, -, -, -, -, -, -, hc⟩
  · exact ⟨s0, [], hc⟩
  · exact ⟨s0, _, hc⟩

/-! ### Example: a forged token, whose header is `{"alg":"HS256","msg":"pay"}` -/

def exForged : String := "{\"payload\": \"e30\", \"protected\": \"eyJhbGciOiJIUzI1NiIsIm1zZyI6InBheSJ9\", \"signature\": \"AAAA\"}"

theorem exForged_header : FirstHeader exForged [("alg", .str "HS256"), ("msg", .str "pay")] [] [] :=
  ⟨[("payload", .str "e30"), ("protected", .str "eyJhbGciOiJIUzI1NiIsIm1zZyI6InBheSJ9"), ("signature", .str "AAAA")], "e30", _,
    "eyJhbGciOiJIUzI1NiIsIm1zZyI6InBheSJ9", "AAAA", ascii "{\"alg\":\"HS256\",\"msg\":\"pay\"}", "{\"alg\":\"HS256\",\"msg\":\"pay\"}",
    by decide +kernel, by decide +kernel, .inr (.inr ⟨by decide +kernel, rfl⟩), ⟨_, rfl, by decide +kernel, by decide +kernel, .inr ⟨by decide +kernel, rfl⟩⟩,
    by decide +kernel, by decide +kernel, by decide +kernel, by decide +kernel⟩

/-- An object about to sign "hello" refuses the token, and then signs "pay". -/
example : let o : Jwx := { msg := .str "hello", dict := [("alg", .str "HS512")] }
    let r := o.verifyJson toyEnv exForged [exKey] false .none
    r.1 = .error .badSignature ∧ ∃ t, (r.2.signCompact toyEnv [exKey] [] 0).1 = .ok t ∧
      ∃ s0 s2, utf8Encode t = s0 ++ 46 :: b64e (utf8Encode "pay") ++ 46 :: s2 := by
  intro o r
  have h1 : r.1 = .error .badSignature := by decide +kernel
  have h2 : (r.2.signCompact toyEnv [exKey] [] 0).1.toOption.isSome = true := by decide +kernel
  refine ⟨h1, ?_⟩
  cases ht : (r.2.signCompact toyEnv [exKey] [] 0).1 with
  | error e => rw [ht] at h2; cases h2
  | ok t =>
    exact ⟨t, rfl, C124_signs toyEnv o exForged [exKey] false .none exForged_header (by decide) (by simp [Merged, PyDict.get?, List.lookup]) rfl rfl h1 [exKey] [] 0 t ht⟩

def exForged2 : String :=
  "{\"payload\": \"e30\", \"protected\": \"eyJhbGciOiJIUzI1NiIsIm1zZyI6InBheSJ9\", \"header\": {\"jwk\": {}, \"kid\": \"b\"}, \"signature\": \"AAAA\"}"

/-- The same with a `jwk` in the unprotected header that is none. -/
example : let r := ({ msg := .str "hello", dict := [("alg", .str "HS512"), ("kid", .str "a")] } : Jwx).verifyJson toyEnv exForged2 [exKey] false .none
    (∃ e, r.1 = .error e) ∧ r.2.msg = .str "pay" ∧ r.2.dict = [("alg", .str "HS256")] := by
  intro r
  have h : r.1.toOption = none ∧ r.2.msg = .str "pay" ∧ r.2.dict = [("alg", .str "HS256")] := by decide +kernel
  refine ⟨?_, h.2⟩
  cases hr : r.1 with
  | error e => exact ⟨e, rfl⟩
  | ok m => rw [hr] at h; cases h.1

end Verif
