import Verif.Props.Real
import Verif.Spec.Ordinary
/-
C120: which exceptions checking a compact token raises.
-/

namespace Verif
open Spec

/-! ### Computations that raise only listed exceptions -/

/-- Every exception raised is in `S`. -/
def Raises {α : Type} (S : List Exc) (x : PyM α) : Prop := ∀ e, x = .error e → e ∈ S

theorem raises_ok {α : Type} {S : List Exc} (a : α) : Raises S (.ok a : PyM α) := fun _ h => by cases h
theorem raises_err {α : Type} {S : List Exc} {e : Exc} (h : e ∈ S) : Raises S (.error e : PyM α) :=
  fun _ h' => by cases h'; exact h
theorem raises_bind {α β : Type} {S : List Exc} {x : PyM α} {f : α → PyM β} (h : Raises S x)
    (hf : ∀ a, x = .ok a → Raises S (f a)) : Raises S (x.bind f) := by
  rcases x with e | a
  · exact raises_err (h e rfl)
  · exact hf a rfl
theorem raises_map {α β : Type} {S : List Exc} {x : PyM α} {f : α → β} (h : Raises S x) : Raises S (x.map f) := by
  rcases x with e | a
  · exact raises_err (h e rfl)
  · exact raises_ok _
theorem raises_ite {α : Type} {S : List Exc} {c : Prop} [Decidable c] {x y : PyM α} (hx : c → Raises S x)
    (hy : ¬ c → Raises S y) : Raises S (if c then x else y) := by
  split
  · exact hx ‹_›
  · exact hy ‹_›
theorem raises_mono {α : Type} {S T : List Exc} {x : PyM α} (h : Raises S x) (hs : ∀ e ∈ S, e ∈ T) : Raises T x :=
  fun e he => hs e (h e he)
theorem raises_mapM {α β : Type} {S : List Exc} {f : α → PyM β} : ∀ (l : List α), (∀ a ∈ l, Raises S (f a)) →
    Raises S (l.mapM f)
  | [], _ => by simp only [List.mapM_nil]; exact raises_ok _
  | a :: l, hf => by
    rw [List.mapM_cons]
    exact raises_bind (hf a (by simp)) fun b _ => raises_bind (raises_mapM l fun x hx => hf x (by simp [hx])) fun c _ =>
      raises_ok _

theorem raises_b64d (b : Bytes) : Raises [.badSyntax, .binasciiError] (b64d b) := fun e h => by
  rcases C03_errors b e h with rfl | rfl <;> decide

theorem raises_utf8 (b : Bytes) : Raises [.unicodeDecodeError] (utf8Decode b) := by
  unfold utf8Decode
  split <;> first | exact raises_ok _ | exact raises_err (by decide)

theorem raises_json (s : String) : Raises [.jsonDecodeError] (jsonLoads s) := by
  unfold jsonLoads
  dsimp only
  split
  · exact raises_ite (fun _ => raises_ok _) fun _ => raises_err (by decide)
  · exact raises_err (by decide)

/-- What `JWT.unpack` raises. -/
theorem raises_unpack (t : Bytes) :
    Raises [.badSyntax, .binasciiError, .unicodeDecodeError, .jsonDecodeError] (Jwt.unpack t) := by
  unfold Jwt.unpack splitToken
  refine raises_bind (raises_ite (fun _ => raises_err (by decide)) fun _ => raises_ok _) fun _ _ =>
    raises_bind (raises_mapM _ fun b _ => raises_mono (raises_b64d b) (by decide)) fun _ _ =>
    raises_bind (raises_mono (raises_utf8 _) (by decide)) fun _ _ =>
    raises_bind (raises_mono (raises_json _) (by decide)) fun _ _ => raises_ok _

theorem raises_headerAlg (j : Jwt) : Raises [.typeError, .attributeError] j.headerAlg := by
  unfold Jwt.headerAlg PyVal.getItem PyVal.lower
  cases j.headers with
  | dict d =>
    simp only
    cases PyDict.get? d "alg" with
    | none => exact raises_ok _
    | some v =>
      refine raises_ite (fun _ => raises_ok _) fun _ => raises_bind ?_ fun _ _ => raises_ok _
      split <;> first | exact raises_ok _ | exact raises_err (by decide)
  | _ => exact raises_err (by decide)

theorem raises_payload {jb : Bytes → PyM PyVal} (hjb : JsonBytesLawful jb) {j : Jwt} (h : 1 < j.part.length) :
    Raises [.typeError, .attributeError, .keyError] (j.payload jb) := by
  have hp : j.part[1]? = some j.part[1] := List.getElem?_eq_getElem h
  unfold Jwt.payload
  rw [hp]
  refine raises_bind (raises_ok _) fun p _ => ?_
  refine raises_bind ?_ fun b _ => raises_bind (raises_ite (fun _ => raises_bind ?_ fun c _ => raises_bind ?_ fun _ _ => raises_ok _)
    fun _ => raises_ok _) fun sk _ => raises_ite (fun _ => raises_ok _) fun _ => ?_
  · unfold PyVal.contains
    split <;> first | exact raises_ok _ | exact raises_err (by decide)
  · unfold PyVal.getItem
    split
    · split <;> first | exact raises_ok _ | exact raises_err (by decide)
    · exact raises_err (by decide)
  · unfold PyVal.lower
    split <;> first | exact raises_ok _ | exact raises_err (by decide)
  · have hv : ∀ e, jsonLoadsVal jb (asUnicode p) = .error e → e.isValueError = true := by
      intro e he
      unfold asUnicode at he
      split at he
      · have := raises_json _ e he
        simp only [List.mem_singleton] at this
        rw [this]; rfl
      · exact hjb _ _ he
    cases hx : jsonLoadsVal jb (asUnicode p) with
    | ok v => exact raises_ok _
    | error e => simp only [hv e hx, if_true]; exact raises_ok _

theorem raises_curve (h : HashAlg) : ∃ C, esCurve h = .ok C := by
  cases h <;> exact ⟨_, rfl⟩

/-- `TypeError` for ECDSA: the point computed is the neutral element. -/
def attemptExc : SigAlg → List Exc
  | .es _ => [.badSignature, .typeError]
  | _ => [.badSignature]

/-- What one attempt with an ordinary key raises; `TypeError` only for ECDSA. -/
theorem raises_attempt {E : Env} (hE : Standard E) {a : SigAlg} {k : Key} (ho : Ordinary k) (ht : TypeFor a k.kty)
    (msg sig : Bytes) : Raises (attemptExc a)
      ((k.getKey false).bind (a.verify E msg sig)) := by
  obtain ⟨f, hR⟩ := hE.rsa
  cases ho with
  | @rsa m r hm hty hk =>
    rw [hty] at ht
    rw [getKey_not_ec (by rintro ⟨_, _, _, _, _, h⟩; rw [hm] at h; cases h), hk]
    cases a with
    | hs h => rcases ht with h | h | h | h <;> simp at h
    | es h => rcases ht with h | h | h | h <;> simp at h
    | rs h =>
      simp only [Except.bind, SigAlg.verify, rsaKeyArg, Bind.bind, hR]
      show Raises _ (match (Except.ok (Real.verify15 h r msg sig) : PyM Bool) with
        | .ok true => .ok ()
        | .ok false => .error .badSignature
        | .error e => if e.isValueError then .error .badSignature else .error e)
      cases Real.verify15 h r msg sig
      · exact raises_err (by simp [attemptExc])
      · exact raises_ok _
    | ps h =>
      simp only [Except.bind, SigAlg.verify, rsaKeyArg, Bind.bind, hR, Real.rsa]
      exact raises_ite (fun _ => raises_ok _) fun _ => raises_err (by simp [attemptExc])
  | @ec crv x y d c i j hm hty hx hy hi hj =>
    rw [hty] at ht
    cases a with
    | hs h => rcases ht with h | h | h | h <;> simp at h
    | rs h => rcases ht with h | h | h | h <;> simp at h
    | ps h => rcases ht with h | h | h | h <;> simp at h
    | es h =>
      rw [getKey_ec hm, hx, hy]
      obtain ⟨C, hC⟩ := raises_curve h
      have hp : ((PyVal.int i).truthy && (PyVal.int j).truthy) = true := by simp [PyVal.truthy, hi, hj]
      rw [if_pos hp]
      simp only [Except.bind, SigAlg.verify, Bind.bind, hC, esPub, PyVal.asInt?]
      refine raises_ite (fun _ => ?_) fun _ => raises_err (by simp [attemptExc])
      refine raises_bind (x := C.verify _ _ _) ?_ fun b _ => raises_ite (fun _ => raises_ok _) fun _ => raises_err (by simp [attemptExc])
      unfold NistCurve.verify
      refine raises_ite (fun _ => ?_) fun _ => raises_ok _
      dsimp only
      split
      · exact raises_err (by simp [attemptExc])
      · exact raises_ok _
  | @sym kk secret hm hty hk =>
    rw [hty] at ht
    rw [getKey_not_ec (by rintro ⟨_, _, _, _, _, h⟩; rw [hm] at h; cases h), hk]
    cases a with
    | es h => rcases ht with h | h | h | h <;> simp at h
    | rs h => rcases ht with h | h | h | h <;> simp at h
    | ps h => rcases ht with h | h | h | h <;> simp at h
    | hs h =>
      simp only [Except.bind, SigAlg.verify, hmacKey, Bind.bind]
      exact raises_ite (fun _ => raises_ok _) fun _ => raises_err (by simp [attemptExc])

theorem raises_loop {E : Env} {a : SigAlg} {msg sig : Bytes} {S : List Exc} (hS : .badSignature ∈ S) :
    ∀ ks : List Key, (∀ k ∈ ks, Raises S ((k.getKey false).bind (a.verify E msg sig))) →
      Raises S (verifyLoop E a msg sig ks)
  | [], _ => raises_err hS
  | k :: ks, h => by
    unfold verifyLoop
    split
    · exact raises_ok _
    · rename_i e he
      exact raises_ite (fun _ => raises_loop hS ks fun x hx => h x (by simp [hx]))
        fun _ => raises_err (h k (by simp) e he)

/-- The keys picked for a signature algorithm are of its type. -/
theorem pickKeys_typed (o : Jwx) {keys ks : List Key} {alg : PyVal} {a : SigAlg}
    (hp : Jwx.pickKeys alg2keytype { o with dict := PyDict.set o.dict "alg" alg } (keys.map JKey.key) "" (.str "") = .ok ks)
    (hs : signerOf alg = some (some a)) : ∀ k ∈ ks, k ∈ keys ∧ TypeFor a k.kty := by
  obtain ⟨name, rfl, hsup⟩ := (signerOf_iff _ _).mp hs
  obtain ⟨hlow, hne, kt, hkt, hty⟩ := supported_alg2keytype hsup
  have hn : name ≠ "none" := by rintro rfl; exact hlow (by decide)
  have hg : PyVal.getItem (.dict (PyDict.set o.dict "alg" (.str name))) "alg" = .ok (.str name) := by
    simp [PyVal.getItem, PyDict.get?_set]
  have hfalse : (PyVal.str "").truthy = false := by decide
  unfold Jwx.pickKeys at hp
  simp only [hfalse, Bool.false_eq_true, if_false, hg, Bind.bind, Except.bind, hkt, PyVal.str.injEq, hn, keysOfType_keys] at hp
  split at hp
  · cases hp
  · cases hp
    intro k hk
    simp only [List.mem_filter] at hk
    exact ⟨hk.1.1, (hty _).mp hk.1.2⟩

theorem raises_pickKeys (o : Jwx) {keys : List Key} {alg : PyVal} :
    Raises [.typeError, .attributeError]
      (Jwx.pickKeys alg2keytype { o with dict := PyDict.set o.dict "alg" alg } (keys.map JKey.key) "" (.str "")) := by
  have hg : PyVal.getItem (.dict (PyDict.set o.dict "alg" alg)) "alg" = .ok alg := by
    simp [PyVal.getItem, PyDict.get?_set]
  have hfalse : (PyVal.str "").truthy = false := by decide
  unfold Jwx.pickKeys
  simp only [hfalse, Bool.false_eq_true, if_false, hg, Bind.bind, Except.bind]
  refine raises_ite (fun _ => raises_ok _) fun _ => raises_bind (x := alg2keytype alg) ?_ fun kt _ => ?_
  · unfold alg2keytype
    refine raises_ite (fun _ => raises_ok _) fun _ => ?_
    split
    · repeat' first | exact raises_ok _ | exact raises_ite (fun _ => raises_ok _) fun _ => raises_ok _ | refine raises_ite (fun _ => raises_ok _) fun _ => ?_
    · exact raises_err (by decide)
    · exact raises_err (by decide)
  · cases kt with
    | none => exact raises_ok _
    | some kt =>
      simp only [keysOfType_keys]
      refine raises_bind (x := Jwx.wantedKid _) ?_ fun _ _ => raises_ok _
      unfold Jwx.wantedKid PyVal.getItem
      dsimp only
      split
      · exact raises_ok _
      split
      · exact raises_ok _
      · rename_i j _
        cases j.headers with
        | dict d =>
          dsimp only
          cases PyDict.get? d "kid" <;> exact raises_ok _
        | _ => exact raises_err (by decide)

/-- **C120.** With ordinary keys, whatever the token is, `verify_compact` raises only the listed exceptions. -/
theorem C120_verify {E : Env} (hE : Standard E) (hjb : JsonBytesLawful E.jsonBytes) (o : Jwx) (jws : Bytes)
    {keys : List Key} (hne : keys ≠ []) (hk : ∀ k ∈ keys, Ordinary k) (an : Bool) (sigalg : PyVal) (e : Exc)
    (h : (o.verifyCompact E jws keys an sigalg).1 = .error e) : e ∈ PackageExc ∨ e ∈ ForeignExc := by
  suffices hr : Raises (PackageExc ++ ForeignExc) (o.verifyVerbose E jws keys an sigalg).1 by
    exact List.mem_append.mp (raises_map (f := Prod.fst) hr e h)
  unfold Jwx.verifyVerbose
  split
  · rename_i e' he
    exact raises_err (raises_mono (raises_unpack _) (by decide) _ he)
  rename_i jwt hu
  split
  · exact raises_err (by decide)
  rename_i hl
  have hl : jwt.part.length = 3 := by omega
  obtain ⟨s0, s1, s2, hb, p, sg, hb64, hparts, -⟩ := token_of_unpack hu hl
  have hpay := raises_mono (T := PackageExc ++ ForeignExc) (raises_payload hjb (j := jwt) (by omega)) (by decide)
  dsimp only
  split
  · rename_i e' he
    exact raises_err (raises_mono (raises_headerAlg _) (by decide) _ he)
  · split
    · split
      · exact raises_ok _
      · rename_i e' he
        exact raises_err (hpay _ he)
    · exact raises_err (by decide)
  · rename_i alg halg
    split
    · exact raises_err (by decide)
    split
    · split <;> exact raises_err (by decide)
    split
    · exact raises_ok _
    rename_i e' he
    refine raises_err ?_
    revert e'
    show Raises _ _
    unfold Jwx.keySource
    rw [if_neg (by simpa using hne)]
    refine raises_bind (raises_ok _) fun src hsrc => raises_bind ?_ fun ks hks =>
      raises_ite (fun _ => raises_err (by decide)) fun _ => ?_
    · cases hsrc
      exact raises_mono (raises_pickKeys { o with jwt := some jwt }) (by decide)
    · cases hsrc
      split
      · exact raises_err (by decide)
      · exact raises_err (by decide)
      rename_i a ha
      refine raises_bind ?_ fun inp _ => raises_bind ?_ fun sig _ => raises_bind (raises_loop (by decide) _ ?_) fun _ _ =>
        raises_bind hpay fun _ _ => raises_ok _
      · unfold Jwt.signInput; rw [hb64]; exact raises_ok _
      · rw [hparts]; exact raises_ok _
      · intro k hkk
        obtain ⟨h1, h2⟩ := pickKeys_typed { o with jwt := some jwt } hks ha k hkk
        exact raises_mono (raises_attempt hE (hk k h1) h2 _ _) (by cases a <;> simp [attemptExc, PackageExc, ForeignExc])

/-- An algorithm name with a key type: the keys of that type that pass the tests are tried. -/
theorem verify_named (E : Env) (o : Jwx) {jws s0 s1 : Bytes} {hdr : PyDict} {p sig : Bytes}
    (ht : Token jws s0 s1 (.dict hdr) p sig) {name kt : String}
    (hv : PyDict.get? hdr "alg" = some (.str name)) (hlow : pyLower name ≠ "none") (hne : name ≠ "")
    (hkt : alg2keytype (.str name) = .ok (some kt)) {keys : List Key} (hke : keys ≠ []) (an : Bool) (sigalg : PyVal) {kid : PyVal}
    (hkid : (match PyDict.get? o.dict "kid" with | some v => v | none => (PyDict.get? hdr "kid").getD .none) = kid) :
    ∃ j : Jwt, Jwt.unpack jws = .ok j ∧ j.headers = .dict hdr ∧ (o.verifyCompact E jws keys an sigalg).1 =
      let ks := (keys.filter fun k => ktyMatches kt k.kty).filter (keyPasses kid "" (.str name))
      if o.algConflict (.str name) || sigalg.truthy && !sigalg.pyEq (.str name) then .error .signerAlgError
      else if ks.isEmpty then .error .noSuitableSigningKeys
      else match signerOf (.str name) with
        | none => .error .keyError
        | some none => .error .attributeError
        | some (some a) => (verifyLoop E a (s0 ++ 46 :: s1) sig ks).bind fun _ => j.payload E.jsonBytes := by
  obtain ⟨s2, hb, hu⟩ := unpack_of_token ht
  generalize hj : (⟨.dict hdr, [s0, s1, s2], [hb, p, sig]⟩ : Jwt) = j at hu
  have hha : j.headerAlg = .ok (.str name, false) := by
    rw [← hj]
    simp [Jwt.headerAlg, PyVal.getItem, hv, PyVal.lower, hlow, Bind.bind, Except.bind]
  have hgi : PyVal.getItem j.headers "alg" = .ok (.str name) := by rw [← hj]; simp [PyVal.getItem, hv]
  have hwk : Jwx.wantedKid { o with jwt := some j, dict := PyDict.set o.dict "alg" (.str name) } = .ok kid := by
    rw [← hj, ← hkid]
    simp only [Jwx.wantedKid, PyVal.getItem, PyDict.get?_set]
    rw [if_neg (by decide)]
    cases PyDict.get? o.dict "kid" with
    | some v => rfl
    | none => cases PyDict.get? hdr "kid" <;> rfl
  have hpick := pickKeys_str (a2k := alg2keytype) { o with jwt := some j, dict := PyDict.set o.dict "alg" (.str name) } name kt
    keys "" hne (by rintro rfl; exact hlow (by decide)) hkt (.str "") (.inr ⟨by decide, by simp [PyDict.get?_set]⟩) kid hwk
  refine ⟨j, hu, by rw [← hj], ?_⟩
  have hlen : j.part.length = 3 := by rw [← hj]; rfl
  have hsi : j.signInput = .ok (s0 ++ 46 :: s1) := by rw [← hj]; rfl
  have hp2 : j.part[2]? = some sig := by rw [← hj]; rfl
  have hke' : keys.isEmpty = false := by simpa using hke
  clear hj
  unfold Jwx.verifyCompact Jwx.verifyVerbose
  simp only [hu]
  rw [if_neg (by omega)]
  simp only [hha, hgi, reduceCtorEq, if_false]
  have hac : Jwx.algConflict { o with jwt := some j } (.str name) = o.algConflict (.str name) := rfl
  simp only [hac]
  cases o.algConflict (.str name) with
  | true => rfl
  | false =>
    simp only [Bool.false_or, Bool.false_eq_true, if_false]
    generalize (sigalg.truthy && !sigalg.pyEq (.str name)) = c
    cases c with
    | true => rfl
    | false =>
      simp only [Bool.false_eq_true, if_false, Jwx.keySource, hke', Bind.bind, Except.bind]
      rw [hpick]
      dsimp only
      generalize (keys.filter fun k => ktyMatches kt k.kty).filter (keyPasses kid "" (.str name)) = ks
      cases ks with
      | nil => rfl
      | cons k ks =>
        simp only [List.isEmpty_cons, Bool.false_eq_true, if_false]
        cases signerOf (.str name) with
        | none => rfl
        | some x =>
          cases x with
          | none => rfl
          | some a =>
            simp only [hsi, hp2]
            cases verifyLoop E a (s0 ++ 46 :: s1) sig (k :: ks) with
            | error e => rfl
            | ok k' =>
              dsimp only
              cases j.payload E.jsonBytes <;> rfl

/-- **C120.** For a token of three parts whose header is an object with a supported algorithm and no `cty` or a
textual one, only exceptions of this package are raised, and for ECDSA also `TypeError`. -/
theorem C120_wellformed {E : Env} (hE : Standard E) (hjb : JsonBytesLawful E.jsonBytes) (o : Jwx) {jws s0 s1 : Bytes}
    {hdr : PyDict} {p sig : Bytes} (ht : Token jws s0 s1 (.dict hdr) p sig) {name : String} {a : SigAlg}
    (hv : PyDict.get? hdr "alg" = some (.str name)) (ha : SupportedAlg name a)
    (hc : PyDict.get? hdr "cty" = none ∨ ∃ c, PyDict.get? hdr "cty" = some (.str c))
    {keys : List Key} (hne : keys ≠ []) (hk : ∀ k ∈ keys, Ordinary k) (an : Bool) (sigalg : PyVal) (e : Exc)
    (h : (o.verifyCompact E jws keys an sigalg).1 = .error e) :
    e = .signerAlgError ∨ e = .noSuitableSigningKeys ∨ e = .badSignature ∨ (e = .typeError ∧ ∃ d, a = .es d) := by
  obtain ⟨hlow, hne0, kt, hkt, hty⟩ := supported_alg2keytype ha
  obtain ⟨j, hu, hj, hres⟩ := verify_named E o ht hv hlow hne0 hkt hne an sigalg rfl
  obtain ⟨m, hm⟩ := C10_total E.jsonBytes hjb _ _ hu hdr hj hc
  have hbad : Exc.badSignature ∈ Exc.signerAlgError :: .noSuitableSigningKeys :: attemptExc a := by
    cases a <;> simp [attemptExc]
  suffices hr : Raises (.signerAlgError :: .noSuitableSigningKeys :: attemptExc a)
      (o.verifyCompact E jws keys an sigalg).1 by
    have := hr e h
    cases a <;> simp only [attemptExc, List.mem_cons, List.not_mem_nil, or_false] at this <;>
      rcases this with h | h | h | h <;> simp [h]
  rw [hres, (signerOf_iff _ _).mpr ⟨name, rfl, ha⟩, hm]
  refine raises_ite (fun _ => raises_err (by simp)) fun _ => raises_ite (fun _ => raises_err (by simp)) fun _ =>
    raises_bind (raises_loop hbad _ fun k hkk => ?_) fun _ _ => raises_ok _
  simp only [List.mem_filter] at hkk
  exact raises_mono (raises_attempt hE (hk k hkk.1.1) ((hty _).mp hkk.1.2) _ _) fun e he => by simp [he]

/-! ### Every one of them is raised -/

/-- Tokens with empty payload and signature. -/
def bareToken (h : String) : Bytes := b64e (utf8Encode h) ++ ascii ".."

theorem bare_token {h : String} {hdr : PyVal} (hh : jsonLoads h = .ok hdr) :
    Token (bareToken h) (b64e (utf8Encode h)) [] hdr [] [] :=
  ⟨⟨[], by simp [bareToken]; rfl, by decide, by simp⟩, ⟨b64e_no_dot _, by simp⟩, ⟨_, h, C01_roundtrip _, utf8Decode_encode h, hh⟩, by decide⟩

/-- **C120.** Independently of keys and object: text without a dot, two parts, a segment that is no base64, bytes
that are no text, text that is no JSON, JSON that is no object, an algorithm that is no text, and no
signature. -/
theorem C120_raised (E : Env) (o : Jwx) (keys : List Key) (sigalg : PyVal) :
    (o.verifyCompact E (ascii "e30") keys false sigalg).1 = .error .badSyntax ∧
    (o.verifyCompact E (ascii "e30.") keys false sigalg).1 = .error .wrongNumberOfParts ∧
    (o.verifyCompact E (ascii "A\n..") keys false sigalg).1 = .error .binasciiError ∧
    (o.verifyCompact E (ascii "_w..") keys false sigalg).1 = .error .unicodeDecodeError ∧
    (o.verifyCompact E (ascii "ew..") keys false sigalg).1 = .error .jsonDecodeError ∧
    (o.verifyCompact E (bareToken "[]") keys false sigalg).1 = .error .typeError ∧
    (o.verifyCompact E (bareToken "{\"alg\":1}") keys false sigalg).1 = .error .attributeError ∧
    (o.verifyCompact E (bareToken "{\"alg\":\"none\"}") keys false sigalg).1 = .error .signerAlgError := by
  have key : ∀ t e, Jwt.unpack t = .error e → (o.verifyCompact E t keys false sigalg).1 = .error e := by
    intro t e h
    simp [Jwx.verifyCompact, Jwx.verifyVerbose, h, Except.map]
  have alg : ∀ s hdr e, jsonLoads s = .ok hdr → (∀ l m, Jwt.headerAlg ⟨hdr, l, m⟩ = .error e) →
      (o.verifyCompact E (bareToken s) keys false sigalg).1 = .error e := by
    intro s hdr e h h'
    obtain ⟨_, _, hu⟩ := unpack_of_token (bare_token h)
    simp [Jwx.verifyCompact, Jwx.verifyVerbose, hu, h', Except.map]
  refine ⟨key _ _ (by decide +kernel), ?_, key _ _ (by decide +kernel), key _ _ (by decide +kernel), key _ _ (by decide +kernel),
    alg _ (.list []) _ (by decide +kernel) fun _ _ => rfl, alg _ (.dict [("alg", .int 1)]) _ (by decide +kernel) fun _ _ => rfl, ?_⟩
  · have : Jwt.unpack (ascii "e30.") = .ok ⟨.dict [], [ascii "e30", []], [ascii "{}", []]⟩ := by decide +kernel
    simp [Jwx.verifyCompact, Jwx.verifyVerbose, this, Except.map]
  · have hj : jsonLoads "{\"alg\":\"none\"}" = .ok (.dict [("alg", .str "none")]) := by decide +kernel
    exact C12_refused E o _ keys sigalg _ _ _ _ _ (bare_token hj) (.str "none") rfl (.inr ⟨_, rfl, by decide⟩)

theorem oct_passes {keys : List Key} {k : Key} (hm : k ∈ keys) (ht : k.kty = .str "oct") (ha : k.alg.truthy = false) (name : String) :
    ((keys.filter fun k => ktyMatches "oct" k.kty).filter (keyPasses .none "" (.str name))).isEmpty = false := by
  rw [List.isEmpty_eq_false_iff_exists_mem]
  refine ⟨k, List.mem_filter.mpr ⟨List.mem_filter.mpr ⟨hm, ?_⟩, ?_⟩⟩
  · rw [ht]; decide +kernel
  · have : PyVal.none.truthy = false := rfl
    simp [keyPasses, ha, this]

/-- **C120.** An algorithm that merely begins like a supported one gives `KeyError` as soon as a key of the type
is in the list, and `NoSuitableSigningKeys` if there is none. -/
theorem C120_keyError (E : Env) (keys : List Key) (hne : keys ≠ []) :
    (∀ k ∈ keys, k.kty = .str "oct" → k.alg.truthy = false →
      (({} : Jwx).verifyCompact E (bareToken "{\"alg\":\"HS1\"}") keys false .none).1 = .error .keyError) ∧
    ((∀ k ∈ keys, ¬ Spelled "oct" "OCT" k.kty) →
      (({} : Jwx).verifyCompact E (bareToken "{\"alg\":\"HS1\"}") keys false .none).1 = .error .noSuitableSigningKeys) := by
  have hj : jsonLoads "{\"alg\":\"HS1\"}" = .ok (.dict [("alg", .str "HS1")]) := by decide +kernel
  obtain ⟨j, -, -, hres⟩ := verify_named E {} (bare_token hj) (name := "HS1") (kt := "oct") rfl (by decide) (by decide) (by decide)
    hne false .none (kid := .none) rfl
  rw [hres]
  have hs : signerOf (.str "HS1") = none := by decide
  have hc : (({} : Jwx).algConflict (.str "HS1") || PyVal.none.truthy && !PyVal.none.pyEq (.str "HS1")) = false := by rfl
  simp only [hs, hc, Bool.false_eq_true, if_false]
  refine ⟨fun k hm ht ha => ?_, fun hno => ?_⟩
  · rw [oct_passes hm ht ha]; rfl
  · have : (keys.filter fun k => ktyMatches "oct" k.kty) = [] := by
      rw [List.filter_eq_nil_iff]
      intro k hk hty
      refine hno k hk ?_
      have h1 : pyLower "oct" = "oct" := by decide
      have h2 : pyUpper "oct" = "OCT" := by decide
      simpa [ktyMatches, Spelled, h1, h2, or_assoc] using hty
    rw [this]; rfl

theorem loop_bad {E : Env} {a : SigAlg} {msg sig : Bytes} : ∀ ks : List Key,
    (∀ k ∈ ks, (k.getKey false).bind (a.verify E msg sig) = .error .badSignature) → verifyLoop E a msg sig ks = .error .badSignature
  | [], _ => rfl
  | k :: ks, h => by
    unfold verifyLoop
    rw [h k (by simp)]
    simp only [true_or, if_true]
    exact loop_bad ks fun x hx => h x (by simp [hx])

/-- **C120.** A token for HMAC with an empty signature gives `BadSignature`. -/
theorem C120_badSignature {E : Env} (hE : Standard E) {keys : List Key} (hk : ∀ k ∈ keys, Ordinary k) {k : Key} (hm : k ∈ keys)
    (ht : k.kty = .str "oct") (ha : k.alg.truthy = false) :
    (({} : Jwx).verifyCompact E (bareToken "{\"alg\":\"HS256\"}") keys false .none).1 = .error .badSignature := by
  have hj : jsonLoads "{\"alg\":\"HS256\"}" = .ok (.dict [("alg", .str "HS256")]) := by decide +kernel
  obtain ⟨j, -, -, hres⟩ := verify_named E {} (bare_token hj) (name := "HS256") (kt := "oct") rfl (by decide) (by decide) (by decide)
    (List.ne_nil_of_mem hm) false .none (kid := .none) rfl
  rw [hres]
  have hs : signerOf (.str "HS256") = some (some (.hs .sha256)) := by decide
  have hc : (({} : Jwx).algConflict (.str "HS256") || PyVal.none.truthy && !PyVal.none.pyEq (.str "HS256")) = false := by rfl
  simp only [hs, hc, Bool.false_eq_true, if_false, oct_passes hm ht ha]
  obtain ⟨-, -, kt, hkt, hty⟩ := supported_alg2keytype .HS256
  have hkt' : kt = "oct" := by
    have : alg2keytype (.str "HS256") = .ok (some "oct") := by decide
    rw [this] at hkt
    cases hkt; rfl
  rw [loop_bad]
  · rfl
  intro x hx
  simp only [List.mem_filter] at hx
  have hr := raises_attempt hE (hk x hx.1.1) ((hty _).mp (by rw [hkt']; exact hx.1.2))
    (b64e (utf8Encode "{\"alg\":\"HS256\"}") ++ 46 :: []) []
  cases hv : (x.getKey false).bind (SigAlg.verify E (.hs .sha256) (b64e (utf8Encode "{\"alg\":\"HS256\"}") ++ 46 :: []) []) with
  | error e =>
    have := hr e hv
    simp only [attemptExc, List.mem_singleton] at this
    rw [this]
  | ok u =>
    obtain ⟨-, secret, -, h0⟩ := (verify_iff _ _ _ _ _).mp hv
    have := hE.shaLaw.hmac_length .sha256 secret (b64e (utf8Encode "{\"alg\":\"HS256\"}") ++ 46 :: [])
    rw [← h0] at this
    exact absurd this (by decide)

/-! ### Examples -/

/-- A symmetric key for every algorithm. -/
def exAnySym : Key := { exSym with alg := .str "" }

theorem stdEnv_jsonBytes : JsonBytesLawful stdEnv.jsonBytes := fun _ _ h => by cases h; rfl

theorem exAnySym_ordinary : ∀ k ∈ [exAnySym], Ordinary k := by
  intro k hk
  simp only [List.mem_singleton] at hk
  subst hk
  exact .sym rfl rfl rfl

example : (({} : Jwx).verifyCompact stdEnv (bareToken "{\"alg\":\"HS256\"}") [exAnySym] false .none).1 = .error .badSignature :=
  C120_badSignature stdEnv_standard exAnySym_ordinary (List.mem_singleton.mpr rfl) rfl rfl

example : (({} : Jwx).verifyCompact stdEnv (bareToken "{\"alg\":\"HS1\"}") [exAnySym] false .none).1 = .error .keyError :=
  (C120_keyError stdEnv [exAnySym] (by simp)).1 exAnySym (List.mem_singleton.mpr rfl) rfl rfl

example (jws : Bytes) (an : Bool) (e : Exc) (h : (({} : Jwx).verifyCompact stdEnv jws [exAnySym] an .none).1 = .error e) :
    e ≠ .valueError ∧ e ≠ .indexError ∧ e ≠ .zeroDivisionError ∧ e ≠ .nonTermination := by
  have := C120_verify stdEnv_standard stdEnv_jsonBytes {} jws (by simp) exAnySym_ordinary an .none e h
  revert this
  cases e <;> decide

example (e : Exc) (h : (({} : Jwx).verifyCompact stdEnv (bareToken "{\"alg\":\"HS256\"}") [exAnySym] false .none).1 = .error e) :
    e = .signerAlgError ∨ e = .noSuitableSigningKeys ∨ e = .badSignature := by
  have hj : jsonLoads "{\"alg\":\"HS256\"}" = .ok (.dict [("alg", .str "HS256")]) := by decide +kernel
  have := C120_wellformed stdEnv_standard stdEnv_jsonBytes {} (bare_token hj) rfl .HS256 (.inl rfl) (by simp) exAnySym_ordinary
    false .none e h
  simpa using this

end Verif
