import Verif.Props.JwkRaises
/-
C131: which exceptions `verify_json` raises on untrusted text.
-/

namespace Verif
open Spec

theorem keyrep_raises {E : Env} (hE : Documented E) {d : PyDict} (h : ∀ p ∈ d, NoBytes p.2) : Raises SetExc (keyrep E d) := by
  intro e he
  have sub : (∀ x ∈ RsaJwkExc, x ∈ SetExc) ∧ (∀ x ∈ OctJwkExc, x ∈ SetExc) ∧ ∀ x ∈ EcJwkExc, x ∈ SetExc := by decide
  rcases C130_family hE h he with ⟨-, rfl⟩ | ⟨-, h⟩ | ⟨-, h⟩ | ⟨-, h⟩ | ⟨rfl, -⟩
  · decide
  · exact sub.1 _ h
  · exact sub.2.1 _ h
  · exact sub.2.2 _ h
  · decide

theorem dict_noBytes {d : PyDict} (h : NoBytes (.dict d)) : ∀ p ∈ d, NoBytes p.2 := by
  cases h with
  | dict _ h => exact h

theorem raises_jwkParam {E : Env} (hE : Documented E) {v : PyVal} (h : NoBytes v) : Raises SetExc (jwkParam E v) := by
  unfold jwkParam
  cases h with
  | dict d h => exact raises_map (keyrep_raises hE h)
  | str s =>
    refine raises_bind (raises_mono (raises_json _) (by decide)) fun w hw => ?_
    have := jsonLoads_noBytes hw
    cases this with
    | dict d h => exact raises_map (keyrep_raises hE h)
    | _ => exact raises_err (by decide)
  | _ => exact raises_ok _

theorem raises_reinit {E : Env} (hE : Documented E) (o : Jwx) {kw : PyDict} (h : ∀ p ∈ kw, NoBytes p.2) : Raises SetExc (o.reinit E kw).1 := by
  unfold Jwx.reinit
  split
  · exact raises_err (by decide)
  · unfold Jwx.initBody
    dsimp only
    split
    · exact raises_ok _
    · split
      · exact raises_ok _
      · rename_i v hv
        have hv' : NoBytes v := by
          have := get?_mem hv
          exact h _ (List.mem_filter.mp this).1
        split
        · exact raises_ok _
        · rename_i e he
          exact raises_err (raises_jwkParam hE hv' e he)

/-! ### Merging the headers -/

theorem updatePair_noBytes {x k v : PyVal} (hx : NoBytes x) (h : updatePair x = .ok (k, v)) : NoBytes v := by
  unfold updatePair at h
  split at h
  all_goals try cases h
  · cases hx with
    | list _ h => exact h _ (by simp)
  · split at h
    · cases h; exact .str _
    · cases h
  · exact .str _

theorem raises_updatePair (x : PyVal) : Raises [.valueError, .typeError] (updatePair x) := by
  unfold updatePair
  split
  all_goals try exact raises_ok _
  all_goals try exact raises_err (by decide)
  split
  · exact raises_ok _
  · exact raises_err (by decide)

theorem raises_updateSeq : ∀ (l : List PyVal) (d : PyDict) (named : Bool), Raises [.valueError, .typeError] (updateSeq d named l)
  | [], d, named => raises_ite (fun _ => raises_ok _) fun _ => raises_err (by decide)
  | x :: l, d, named => by
    unfold updateSeq
    refine raises_bind (raises_updatePair x) fun r _ => ?_
    obtain ⟨k, v⟩ := r
    dsimp only
    split
    · exact raises_updateSeq l _ _
    · exact raises_err (by decide)
    · exact raises_err (by decide)
    · exact raises_updateSeq l _ _

theorem updateSeq_noBytes : ∀ (l : List PyVal) (d : PyDict) (named : Bool), (∀ v ∈ l, NoBytes v) → (∀ p ∈ d, NoBytes p.2) →
    ∀ r, updateSeq d named l = .ok r → ∀ p ∈ r, NoBytes p.2
  | [], d, named, _, hd, r, h => by
    unfold updateSeq at h
    split at h
    · cases h; exact hd
    · cases h
  | x :: l, d, named, hl, hd, r, h => by
    unfold updateSeq at h
    cases hp : updatePair x with
    | error e => rw [hp] at h; cases h
    | ok kv =>
      obtain ⟨k, v⟩ := kv
      rw [hp] at h
      simp only [Bind.bind, Except.bind] at h
      have hv := updatePair_noBytes (hl x (by simp)) hp
      have ih := updateSeq_noBytes l
      split at h
      · exact ih _ _ (fun w hw => hl w (by simp [hw])) (set_noBytes hd hv) r h
      · cases h
      · cases h
      · exact ih _ _ (fun w hw => hl w (by simp [hw])) hd r h

theorem raises_pyUpdate (d : PyDict) (v : PyVal) : Raises [.valueError, .typeError] (pyUpdate d v) := by
  unfold pyUpdate
  split
  · exact raises_ok _
  · exact raises_updateSeq _ _ _
  · exact raises_ite (fun _ => raises_ok _) fun _ => raises_err (by decide)
  · exact raises_err (by decide)

theorem pyUpdate_noBytes {d r : PyDict} {v : PyVal} (hd : ∀ p ∈ d, NoBytes p.2) (hv : NoBytes v) (h : pyUpdate d v = .ok r) :
    ∀ p ∈ r, NoBytes p.2 := by
  unfold pyUpdate at h
  split at h
  · cases h
    exact dictOfPairs_noBytes _ _ (dict_noBytes hv) hd
  · rename_i l
    refine updateSeq_noBytes l d true ?_ hd r h
    cases hv with
    | list _ h => exact h
  · split at h
    · cases h; exact hd
    · cases h
  · cases h

/-! ### The entries -/

theorem raises_strEncode (v : PyVal) : Raises [.attributeError] (strEncode v) := by
  unfold strEncode
  split
  · exact raises_ok _
  · exact raises_err (by decide)

theorem raises_entryParts (payload sign : PyVal) : Raises JsonRaised (entryParts payload sign) := by
  unfold entryParts
  split
  · refine raises_bind (raises_mono (raises_strEncode _) (by decide)) fun _ _ => raises_bind (raises_mono (raises_strEncode _) (by decide)) fun _ _ =>
      raises_bind (raises_mono raises_item (by decide)) fun _ _ => raises_bind (raises_mono (raises_strEncode _) (by decide)) fun _ _ =>
      raises_bind ?_ fun _ _ => raises_bind ?_ fun _ _ => raises_bind ?_ fun _ _ =>
      raises_bind (raises_mono (raises_pyUpdate _ _) (by decide)) fun _ _ => raises_ok _
    · unfold entryParts.asDictArg
      split
      · exact raises_ok _
      · exact raises_err (by decide)
    · unfold entryParts.protText
      split
      · unfold b64dEncDec
        exact raises_bind (raises_mono (raises_asciiEncode _) (by decide)) fun _ _ => raises_bind (raises_mono (raises_b64d _) (by decide)) fun _ _ =>
          raises_mono (raises_utf8 _) (by decide)
      · exact raises_err (by decide)
    · unfold entryParts.protVal
      exact raises_ite (fun _ => raises_err (by decide)) fun _ => raises_mono (raises_json _) (by decide)
  · exact raises_err (by decide)

theorem entryParts_noBytes {payload sign : PyVal} (hs : NoBytes sign) {tok : Bytes} {kw : PyDict} (h : entryParts payload sign = .ok (tok, kw)) :
    ∀ p ∈ kw, NoBytes p.2 := by
  unfold entryParts at h
  split at h
  · rename_i d
    simp only [Bind.bind] at h
    obtain ⟨pb, -, h⟩ := bind_ok_iff.mp h
    obtain ⟨pl, -, h⟩ := bind_ok_iff.mp h
    obtain ⟨sg, -, h⟩ := bind_ok_iff.mp h
    obtain ⟨sb, -, h⟩ := bind_ok_iff.mp h
    obtain ⟨uh, hu, h⟩ := bind_ok_iff.mp h
    obtain ⟨ht, -, h⟩ := bind_ok_iff.mp h
    obtain ⟨pv, hp, h⟩ := bind_ok_iff.mp h
    obtain ⟨kw', hk, h⟩ := bind_ok_iff.mp h
    cases h
    refine pyUpdate_noBytes ?_ ?_ hk
    · unfold entryParts.asDictArg at hu
      split at hu
      · rename_i u hw
        cases hu
        unfold kwGet at hw
        cases hg : PyDict.get? d "header" with
        | none => rw [hg] at hw; cases hw; simp
        | some w =>
          rw [hg] at hw
          simp only [Option.getD_some] at hw
          subst hw
          exact dict_noBytes (dict_noBytes hs _ (get?_mem hg))
      · cases hu
    · unfold entryParts.protVal at hp
      split at hp
      · cases hp
      · exact jsonLoads_noBytes hp
  · cases h

theorem raises_entries {E : Env} (hE : Documented E) (hjb : JsonBytesLawful E.jsonBytes) (payload : PyVal) {keys : List Key} (hne : keys ≠ [])
    (hk : ∀ k ∈ keys, Ordinary k) (an : Bool) (sigalg : PyVal) : ∀ (l : List PyVal) (o : Jwx) (claim : PyVal), (∀ s ∈ l, NoBytes s) →
    Raises (JsonRaised ++ JsonKeyed) (o.verifyEntries E payload keys an sigalg claim l).1
  | [], o, claim, _ => raises_ok _
  | s :: l, o, claim, hl => by
    have ih := raises_entries hE hjb payload hne hk an sigalg l
    have h1 : Raises (JsonRaised ++ JsonKeyed) (o.verifyEntry E payload s keys an sigalg).1 := by
      unfold Jwx.verifyEntry
      cases hp : entryParts payload s with
      | error e => exact raises_err (raises_mono (raises_entryParts payload s) (by decide) e hp)
      | ok r =>
        obtain ⟨tok, kw⟩ := r
        have hr := raises_reinit hE o (entryParts_noBytes (hl s (by simp)) hp)
        dsimp only
        generalize o.reinit E kw = r at hr
        obtain ⟨r, o'⟩ := r
        cases r with
        | error e => exact raises_err (raises_mono hr (T := JsonRaised ++ JsonKeyed) (by decide) e rfl)
        | ok u =>
          intro e he
          rcases C120_verify hE.1 hjb o' tok hne hk an sigalg e he with h | h
          · exact (show ∀ x ∈ PackageExc, x ∈ JsonRaised ++ JsonKeyed by decide) _ h
          · exact (show ∀ x ∈ ForeignExc, x ∈ JsonRaised ++ JsonKeyed by decide) _ h
    unfold Jwx.verifyEntries
    generalize o.verifyEntry E payload s keys an sigalg = r at h1
    obtain ⟨r, o'⟩ := r
    cases r with
    | error e => exact raises_err (h1 e rfl)
    | ok m =>
      dsimp only
      split
      · exact ih _ _ fun w hw => hl w (by simp [hw])
      · split
        · exact ih _ _ fun w hw => hl w (by simp [hw])
        · exact raises_err (by decide)

theorem signEntries_noBytes {d : PyDict} (hd : ∀ p ∈ d, NoBytes p.2) {l : List PyVal} (h : signEntries d = .ok l) : ∀ s ∈ l, NoBytes s := by
  unfold signEntries at h
  split at h
  · rename_i l' hg
    cases h
    have := hd _ (get?_mem hg)
    cases this with
    | list _ h => exact h
  · cases h
    intro s hs
    obtain ⟨p, -, rfl⟩ := List.mem_map.mp hs
    exact .str _
  · cases h
    intro s hs
    obtain ⟨p, -, rfl⟩ := List.mem_map.mp hs
    exact .str _
  · cases h
  · cases h
    simp only [List.mem_singleton]
    rintro s rfl
    refine .dict _ ?_
    have pick : ∀ k, ∀ p ∈ (match PyDict.get? d k with | some v => [(k, v)] | none => [] : PyDict), NoBytes p.2 := by
      intro k p hp
      cases hg : PyDict.get? d k with
      | none => rw [hg] at hp; cases hp
      | some v =>
        rw [hg] at hp
        simp only [List.mem_singleton] at hp
        subst hp
        exact hd _ (get?_mem hg)
    intro p hp
    rcases List.mem_append.mp hp with hp | hp
    · rcases List.mem_append.mp hp with hp | hp
      · exact pick _ p hp
      · exact pick _ p hp
    · exact pick _ p hp

/-- **C131.** With ordinary keys, whatever the text is, `verify_json` raises only the listed exceptions. -/
theorem C131_verify {E : Env} (hE : Documented E) (hjb : JsonBytesLawful E.jsonBytes) (o : Jwx) (jws : String) {keys : List Key} (hne : keys ≠ [])
    (hk : ∀ k ∈ keys, Ordinary k) (an : Bool) (sigalg : PyVal) (e : Exc) (h : (o.verifyJson E jws keys an sigalg).1 = .error e) :
    e ∈ JsonRaised ∨ e ∈ JsonKeyed := by
  refine List.mem_append.mp ?_
  revert e
  show Raises _ _
  unfold Jwx.verifyJson
  cases hj : jsonParts jws with
  | error e =>
    refine raises_err ?_
    unfold jsonParts at hj
    split at hj
    · split at hj
      · cases hj; decide
      · rename_i d _ _ p _
        unfold signEntries at hj
        split at hj <;> cases hj
        decide
    · cases hj; decide
    · rename_i e' he
      cases hj
      exact raises_mono (raises_json _) (T := JsonRaised ++ JsonKeyed) (by decide) _ he
  | ok r =>
    obtain ⟨p, l⟩ := r
    refine raises_entries hE hjb p hne hk an sigalg l o .none ?_
    unfold jsonParts at hj
    split at hj
    · rename_i d hd
      split at hj
      · cases hj
      · cases hs : signEntries d with
        | error e => rw [hs] at hj; cases hj
        | ok l' =>
          rw [hs] at hj
          cases hj
          exact signEntries_noBytes (dict_noBytes (jsonLoads_noBytes hd)) hs
    · cases hj
    · cases hj

/-- The flattened serialization of an empty message with `jwk` in the unprotected header. -/
def exJwkText (jwk : String) : String :=
  "{\"payload\":\"\",\"protected\":\"e30\",\"signature\":\"\",\"header\":{\"jwk\":" ++ jwk ++ "}}"

/-- The same with a given protected header and payload. -/
def exProtText (prot payload : String) : String :=
  "{\"payload\":\"" ++ payload ++ "\",\"protected\":\"" ++ prot ++ "\",\"signature\":\"\"}"

/-- A text for each of the exceptions. -/
def exJsonText : Exc → String
  | .jsonDecodeError => "{"
  | .typeError => "[]"
  | .attributeError => exJwkText "\"[]\""
  | .keyError => "{\"payload\":\"\"}"
  | .valueError => exProtText "ImFiYyI" ""
  | .indexError => exJwkText "{\"kty\":\"RSA\",\"x5c\":[\"MIA=\"]}"
  | .overflowError => exJwkText "{\"kty\":\"oct\",\"k\":9223372036854775808}"
  | .unicodeEncodeError => exProtText "é" ""
  | .unicodeDecodeError => exProtText "_w" ""
  | .binasciiError => exProtText "A\\n" ""
  | .badSyntax => exProtText "+" ""
  | .wrongNumberOfParts => exProtText "e30" "."
  | .signerAlgError => exProtText "eyJhbGciOiJub25lIn0" ""
  | .jwsFormatError => "{}"
  | .headerError => exJwkText "{\"kty\":\"EC\",\"crv\":\"P-256\",\"x\":1,\"y\":1,\"kid\":1}"
  | .deSerializationNotPossible => exJwkText "{\"kty\":\"EC\",\"crv\":\"P-256\"}"
  | _ => exJwkText "{\"kty\":\"EC\",\"crv\":\"P-224\",\"x\":1,\"y\":1}"

theorem json_first {E : Env} {o : Jwx} {text : String} {p s : PyVal} {l : List PyVal} {keys : List Key} {an : Bool} {sigalg : PyVal} {e : Exc}
    (hj : jsonParts text = .ok (p, s :: l)) (h : (o.verifyEntry E p s keys an sigalg).1 = .error e) :
    (o.verifyJson E text keys an sigalg).1 = .error e := by
  unfold Jwx.verifyJson
  rw [hj]
  dsimp only
  unfold Jwx.verifyEntries
  generalize o.verifyEntry E p s keys an sigalg = r at h
  obtain ⟨r, o'⟩ := r
  cases h
  rfl

theorem json_parts_bad {E : Env} {o : Jwx} {text : String} {keys : List Key} {an : Bool} {sigalg : PyVal} {e : Exc}
    (hj : jsonParts text = .error e) : (o.verifyJson E text keys an sigalg).1 = .error e := by
  unfold Jwx.verifyJson
  rw [hj]

/-- The entry of `exJwkText`. -/
def exJwkEntry (v : PyVal) : PyVal := .dict [("protected", .str "e30"), ("header", .dict [("jwk", v)]), ("signature", .str "")]

theorem jwk_entry {E : Env} {o : Jwx} {text : String} {v : PyVal} {keys : List Key} {an : Bool} {sigalg : PyVal} {e : Exc}
    (hj : jsonParts text = .ok (.str "", [exJwkEntry v])) (h : jwkParam E v = .error e) :
    (o.verifyJson E text keys an sigalg).1 = .error e := by
  refine json_first hj ?_
  have he : entryParts (.str "") (exJwkEntry v) = .ok (ascii "e30..", [("jwk", v)]) := by
    have h1 : b64dEncDec "e30" = .ok "{}" := by decide +kernel
    have h2 : jsonLoads "{}" = .ok (.dict []) := by decide +kernel
    have h3 : utf8Encode "e30" ++ 46 :: utf8Encode "" ++ 46 :: utf8Encode "" = ascii "e30.." := by decide +kernel
    have hp : kwGet [("protected", .str "e30"), ("header", .dict [("jwk", v)]), ("signature", .str "")] "protected" (.str "") = .str "e30" := rfl
    have hh : kwGet [("protected", .str "e30"), ("header", .dict [("jwk", v)]), ("signature", .str "")] "header" (.dict []) = .dict [("jwk", v)] := rfl
    have hg : PyVal.getItem (.dict [("protected", .str "e30"), ("header", .dict [("jwk", v)]), ("signature", .str "")]) "signature" = .ok (.str "") := rfl
    unfold exJwkEntry entryParts
    simp only [hp, hh, hg, strEncode, entryParts.asDictArg, entryParts.protText, entryParts.protVal, h1, h2, Bind.bind, Except.bind,
      show ("{}" : String) ≠ "" by decide, if_false, pyUpdate, PyDict.update, List.foldl, h3]
  unfold Jwx.verifyEntry
  rw [he]
  dsimp only
  have : (o.reinit E [("jwk", v)]).1 = .error e := by
    have hr : o.reinit E [("jwk", v)] = Jwx.initBody E jwsArgs1 jwsArgs2 o.key .none [("jwk", v)] := rfl
    rw [hr]
    unfold Jwx.initBody
    have : PyDict.get? [("jwk", v)] "jwk" = some v := rfl
    simp only [List.isEmpty_cons, Bool.false_eq_true, if_false, this, h]
  generalize o.reinit E [("jwk", v)] = r at this
  obtain ⟨r, o'⟩ := r
  cases this
  rfl

/-- **C131.** A text for each exception, whatever the keys and the object are. -/
theorem C131_raised {E : Env} (hE : Documented E) (o : Jwx) (keys : List Key) (sigalg : PyVal) :
    ∀ e ∈ JsonRaised, (o.verifyJson E (exJsonText e) keys false sigalg).1 = .error e := by
  have part : ∀ {text : String} {prot payload : String} {e : Exc},
      jsonParts text = .ok (.str payload, [.dict [("protected", .str prot), ("signature", .str "")]]) →
      entryParts (.str payload) (.dict [("protected", .str prot), ("signature", .str "")]) = .error e →
      (o.verifyJson E text keys false sigalg).1 = .error e := by
    intro text prot payload e hj he
    refine json_first hj ?_
    unfold Jwx.verifyEntry
    rw [he]
  have tok : ∀ {text prot payload : String} {t : Bytes} {kw : PyDict} {e : Exc},
      jsonParts text = .ok (.str payload, [.dict [("protected", .str prot), ("signature", .str "")]]) →
      entryParts (.str payload) (.dict [("protected", .str prot), ("signature", .str "")]) = .ok (t, kw) →
      (∀ o : Jwx, ∃ o', o.reinit E kw = (.ok (), o')) → (∀ o : Jwx, (o.verifyCompact E t keys false sigalg).1 = .error e) →
      (o.verifyJson E text keys false sigalg).1 = .error e := by
    intro text prot payload t kw e hj he hr hv
    refine json_first hj ?_
    unfold Jwx.verifyEntry
    obtain ⟨o', ho⟩ := hr o
    rw [he]
    dsimp only
    rw [ho]
    exact hv _
  simp only [JsonRaised, List.mem_cons, List.not_mem_nil, or_false]
  rintro e (rfl | rfl | rfl | rfl | rfl | rfl | rfl | rfl | rfl | rfl | rfl | rfl | rfl | rfl | rfl | rfl | rfl)
  · exact json_parts_bad (by decide +kernel)
  · exact json_parts_bad (by decide +kernel)
  · refine jwk_entry (v := .str "[]") (by decide +kernel) ?_
    have : jsonLoads "[]" = .ok (.list []) := by decide +kernel
    simp [jwkParam, this, Bind.bind, Except.bind]
  · refine json_first (p := .str "") (s := .dict []) (l := []) (by decide +kernel) ?_
    unfold Jwx.verifyEntry
    have : entryParts (.str "") (.dict []) = .error .keyError := by decide +kernel
    rw [this]
  · exact part (prot := "ImFiYyI") (payload := "") (by decide +kernel) (by decide +kernel)
  · refine jwk_entry (v := .dict [("kty", .str "RSA"), ("x5c", .list [.str "MIA="])]) (by decide +kernel) ?_
    simp only [jwkParam, cert_index hE, Except.map]
  · exact jwk_entry (v := .dict [("kty", .str "oct"), ("k", .int 9223372036854775808)]) (by decide +kernel) rfl
  · exact part (prot := "é") (payload := "") (by decide +kernel) (by decide +kernel)
  · exact part (prot := "_w") (payload := "") (by decide +kernel) (by decide +kernel)
  · exact part (prot := "A\n") (payload := "") (by decide +kernel) (by decide +kernel)
  · exact part (prot := "+") (payload := "") (by decide +kernel) (by decide +kernel)
  · refine tok (prot := "e30") (payload := ".") (t := ascii "e30...") (kw := []) (by decide +kernel) (by decide +kernel) (fun o => ⟨_, rfl⟩) fun o => ?_
    have : Jwt.unpack (ascii "e30...") = .ok ⟨.dict [], [ascii "e30", [], [], []], [ascii "{}", [], [], []]⟩ := by decide +kernel
    simp [Jwx.verifyCompact, Jwx.verifyVerbose, this, Except.map]
  · refine tok (prot := "eyJhbGciOiJub25lIn0") (payload := "") (t := bareToken "{\"alg\":\"none\"}") (kw := [("alg", .str "none")])
      (by decide +kernel) (by decide +kernel) (fun o => ⟨_, rfl⟩) fun o => ?_
    exact (C120_raised E o keys sigalg).2.2.2.2.2.2.2
  · exact json_parts_bad (by decide +kernel)
  · exact jwk_entry (v := .dict [("kty", .str "EC"), ("crv", .str "P-256"), ("x", .int 1), ("y", .int 1), ("kid", .int 1)]) (by decide +kernel) rfl
  · exact jwk_entry (v := .dict [("kty", .str "EC"), ("crv", .str "P-256")]) (by decide +kernel) rfl
  · exact jwk_entry (v := .dict [("kty", .str "EC"), ("crv", .str "P-224"), ("x", .int 1), ("y", .int 1)]) (by decide +kernel) rfl

/-- **C131.** With ordinary keys, therefore: the exceptions not depending on the keys are exactly these. -/
theorem C131_exact {E : Env} (hE : Documented E) (hjb : JsonBytesLawful E.jsonBytes) (o : Jwx) {keys : List Key} (hne : keys ≠ [])
    (hk : ∀ k ∈ keys, Ordinary k) (sigalg : PyVal) {e : Exc} (he : e ∉ JsonKeyed) :
    (∃ jws, (o.verifyJson E jws keys false sigalg).1 = .error e) ↔ e ∈ JsonRaised :=
  ⟨fun ⟨_, h⟩ => (C131_verify hE hjb o _ hne hk false sigalg e h).resolve_right he, fun h => ⟨_, C131_raised hE o keys sigalg e h⟩⟩

example : (({} : Jwx).verifyJson docEnv (exJsonText .overflowError) [exAnySym] false .none).1 = .error .overflowError :=
  C131_raised docEnv_documented {} _ _ _ (by decide)
example : ¬ ∃ jws, (({} : Jwx).verifyJson docEnv jws [exAnySym] false .none).1 = .error .structError := by
  rw [C131_exact docEnv_documented stdEnv_jsonBytes {} (by simp) exAnySym_ordinary .none (by decide)]
  decide

end Verif
