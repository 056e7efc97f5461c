import Verif.Spec.Jws
import Verif.Props.Jwt
import Verif.Props.Ints
/-
Lemmas about JWS verification: inversion of `verifyVerbose`, `pickKeys`, the verifiers.
-/

namespace Verif
open Spec

theorem signerOf_iff (v : PyVal) (a : SigAlg) :
    signerOf v = some (some a) ↔ ∃ name, v = .str name ∧ SupportedAlg name a := by
  constructor
  · intro h
    unfold signerOf at h
    split at h
    · rename_i s
      refine ⟨s, rfl, ?_⟩
      split at h
      · simp at h
      simp only [signerAlgs, List.lookup_cons, List.lookup_nil] at h
      repeat' split at h
      all_goals first
        | (simp at h; done)
        | (rename_i hb; simp only [beq_iff_eq] at hb; subst hb
           simp only [Option.map_some, Option.some.injEq] at h; subst h; constructor)
    · simp at h
  · rintro ⟨name, rfl, h⟩
    cases h <;> decide

theorem supported_alg2keytype {name : String} {a : SigAlg} (h : SupportedAlg name a) :
    pyLower name ≠ "none" ∧ name ≠ "" ∧
    ∃ kt, alg2keytype (.str name) = .ok (some kt) ∧ ∀ v, ktyMatches kt v = true ↔ TypeFor a v := by
  have key : ∀ kt lo up, pyLower kt = lo → pyUpper kt = up → ∀ v, ktyMatches kt v = true ↔ Spelled lo up v := by
    rintro kt _ _ rfl rfl v
    simp [ktyMatches, Spelled, or_assoc]
  cases h <;> refine ⟨by decide, by decide, ?_⟩
  all_goals first
    | exact ⟨"oct", by decide, key "oct" "oct" "OCT" (by decide) (by decide)⟩
    | exact ⟨"RSA", by decide, key "RSA" "rsa" "RSA" (by decide) (by decide)⟩
    | exact ⟨"EC", by decide, key "EC" "ec" "EC" (by decide) (by decide)⟩

theorem keysOfType_keys (kt : String) (l : List Key) :
    keysOfType kt (l.map JKey.key) = .ok (l.filter fun k => ktyMatches kt k.kty) := by
  induction l with
  | nil => rfl
  | cons k l ih =>
    simp only [List.map_cons, keysOfType, ih, Bind.bind, Except.bind, List.filter_cons]

theorem keysOfType_ok {kt : String} : ∀ {src : List JKey} {ks : List Key},
    keysOfType kt src = .ok ks → ∃ l : List Key, src = l.map JKey.key
  | [], _, _ => ⟨[], rfl⟩
  | .other _ :: _, _, h => by simp [keysOfType] at h
  | .key k :: l, ks, h => by
    simp only [keysOfType, Bind.bind, Except.bind] at h
    split at h
    · simp at h
    · rename_i r hr
      obtain ⟨l', rfl⟩ := keysOfType_ok hr
      exact ⟨k :: l', rfl⟩

theorem pyEq_str_iff (v : PyVal) (s : String) : v.pyEq (.str s) = true ↔ v = .str s := by
  cases v <;> simp [PyVal.pyEq]

theorem str_pyEq_iff (v : PyVal) (s : String) : (PyVal.str s).pyEq v = true ↔ v = .str s := by
  cases v <;> simp [PyVal.pyEq]
  exact eq_comm

/-- What `pick_keys` does when the object has an algorithm and a decoded token. -/
theorem pickKeys_str {a2k} (o : Jwx) (name : String) (kt : String) (keys : List Key) (use : String)
    (hne : name ≠ "") (hn : name ≠ "none") (hk : a2k (.str name) = .ok (some kt)) (alg : PyVal)
    (halg : (alg = .str name) ∨ (alg.truthy = false ∧ PyDict.get? o.dict "alg" = some (.str name)))
    (kid : PyVal) (hkid : o.wantedKid = .ok kid) :
    o.pickKeys a2k (keys.map JKey.key) use alg =
      .ok ((keys.filter fun k => ktyMatches kt k.kty).filter (keyPasses kid use (.str name))) := by
  have htr : (PyVal.str name).truthy = true := by simp [PyVal.truthy, hne]
  have h1 : (if alg.truthy then (.ok alg : PyM PyVal) else PyVal.getItem (.dict o.dict) "alg")
      = .ok (.str name) := by
    rcases halg with rfl | ⟨h, h'⟩
    · rw [htr]; rfl
    · rw [h]; simp [PyVal.getItem, h']
  unfold Jwx.pickKeys
  rw [h1]
  simp only [Bind.bind, Except.bind, PyVal.str.injEq, hn, if_false, hk, keysOfType_keys, hkid]

theorem keyPasses_iff (kid : PyVal) (use name : String) (hne : name ≠ "") (k : Key) :
    keyPasses kid use (.str name) k = true ↔
      (kid.truthy = true → kid.pyEq k.kid = true) ∧
      (use ≠ "" → k.use.truthy = true → k.use = .str use) ∧
      (k.alg.truthy = true → k.alg = .str name) := by
  have htr : (PyVal.str name).truthy = true := by simp [PyVal.truthy, hne]
  simp only [keyPasses, htr, Bool.and_eq_true, Bool.or_eq_true, Bool.not_eq_true', beq_iff_eq,
    pyEq_str_iff, Bool.not_true, false_or, Bool.false_eq_true]
  constructor
  · rintro ⟨⟨h1, h2⟩, h3⟩
    refine ⟨fun h => ?_, fun h h' => ?_, fun h => ?_⟩
    · simpa [h] using h1
    · simpa [h, h'] using h2
    · simpa [h] using h3
  · rintro ⟨h1, h2, h3⟩
    refine ⟨⟨?_, ?_⟩, ?_⟩
    · by_cases h : kid.truthy = true
      · exact .inr (h1 h)
      · exact .inl (by simpa using h)
    · by_cases h : use = ""
      · exact .inl (.inl h)
      · by_cases h' : k.use.truthy = true
        · exact .inr (h2 h h')
        · exact .inl (.inr (by simpa using h'))
    · by_cases h : k.alg.truthy = true
      · exact .inr (h3 h)
      · exact .inl (by simpa using h)

/-! ### The verifiers -/

theorem constantTimeCompare_iff (a b : Bytes) : constantTimeCompare a b = true ↔ a = b :=
  C07_constant_time_compare a b

theorem getKey_not_ec {k : Key} (h : ¬ IsEc k) (priv : Bool) : k.getKey priv = .ok (.obj k.key) := by
  unfold Key.getKey
  split
  · rename_i crv x y d c hm
    exact absurd ⟨crv, x, y, d, c, hm⟩ h
  · rfl

theorem getKey_ec {k : Key} {crv x y d : PyVal} {c : KObj} (hm : k.mat = .ec crv x y d c) :
    k.getKey false = if x.truthy && y.truthy then .ok (.point x y) else .error .valueError := by
  unfold Key.getKey
  rw [hm]; rfl

theorem esCurve_iff (h : HashAlg) (C : NistCurve) : esCurve h = .ok C ↔ CurveFor h C := by
  cases h <;> rfl

theorem truthy_of_asInt {v : PyVal} {i : Int} (h : v.asInt? = some i) : v.truthy = true ↔ i ≠ 0 := by
  cases v <;> simp [PyVal.asInt?] at h
  · subst h; simp [PyVal.truthy]
  · subst h; simp [PyVal.truthy]

theorem bind_ok_iff {α β : Type} {x : PyM α} {f : α → PyM β} {b : β} :
    x.bind f = .ok b ↔ ∃ a, x = .ok a ∧ f a = .ok b := by
  cases x <;> simp [Except.bind]

theorem esPub_iff (k : Key) (P : EPt) : (k.getKey false).bind esPub = .ok P ↔ PubPoint k P := by
  by_cases hec : IsEc k
  · obtain ⟨crv, x, y, d, c, hm⟩ := hec
    rw [getKey_ec hm]
    constructor
    · intro h
      split at h
      · rename_i ht
        simp only [Bool.and_eq_true] at ht
        simp only [Except.bind, esPub] at h
        split at h
        · rename_i i j hi hj
          cases h
          exact .inl ⟨crv, x, y, d, c, i, j, hm, hi, hj, (truthy_of_asInt hi).mp ht.1,
            (truthy_of_asInt hj).mp ht.2, rfl⟩
        · simp at h
      · simp [Except.bind] at h
    · rintro (⟨crv', x', y', d', c', i, j, hm', hi, hj, hi0, hj0, rfl⟩ | ⟨h, -⟩)
      · rw [hm] at hm'
        cases hm'
        rw [(truthy_of_asInt hi).mpr hi0, (truthy_of_asInt hj).mpr hj0]
        simp [Except.bind, esPub, hi, hj]
      · exact absurd ⟨crv, x, y, d, c, hm⟩ h
  · rw [getKey_not_ec hec]
    simp only [Except.bind]
    have hno : ¬ ∃ crv x y d c i j, k.mat = .ec crv x y d c ∧ x.asInt? = some i ∧
        y.asInt? = some j ∧ i ≠ 0 ∧ j ≠ 0 ∧ P = some (i, j) := by
      rintro ⟨crv, x, y, d, c, -, -, hm, -⟩
      exact hec ⟨crv, x, y, d, c, hm⟩
    unfold PubPoint
    simp only [hno, false_or, hec, not_false_eq_true, true_and]
    cases hk : k.key with
    | rsa r => simp [esPub]
    | curve r => simp [esPub]
    | val v =>
      simp only [esPub, KObj.val.injEq, exists_eq_left']
      by_cases ht : v.truthy = false
      · simp only [ht, if_true, Except.ok.injEq, true_and]
        constructor
        · intro h; exact .inl h.symm
        · rintro (h | ⟨a, b, l, rfl, -⟩ | ⟨a, b, l, i, j, rfl, -⟩)
          · exact h.symm
          · simp [PyVal.truthy] at ht
          · simp [PyVal.truthy] at ht
      · simp only [Bool.not_eq_false] at ht
        simp only [ht, if_false, false_and, false_or, Bool.true_eq_false]
        constructor
        · intro h
          split at h
          · cases h; exact .inl ⟨_, _, _, rfl, rfl⟩
          · simp at h
          · split at h
            · rename_i a b l _ _ i j hi hj
              cases h
              exact .inr ⟨a, b, l, i, j, rfl, hi, hj, rfl⟩
            · simp at h
          · simp at h
          · split at h <;> simp at h
          · simp at h
          · simp at h
        · rintro (⟨a, b, l, rfl, rfl⟩ | ⟨a, b, l, i, j, rfl, hi, hj, rfl⟩)
          · rfl
          · simp [hi, hj]

theorem nistVerify_range {C : NistCurve} {h : Nat} {sig : Bytes} {P : EPt}
    (hv : C.verify h sig P = .ok true) : C.sigInRange sig = true := by
  unfold NistCurve.verify at hv
  unfold NistCurve.sigInRange
  simp only at hv ⊢
  split at hv
  · rename_i hr; simpa using hr
  · simp at hv

/-- The verifiers accept exactly what the specification says. -/
theorem verify_iff (E : Env) (a : SigAlg) (k : Key) (input sig : Bytes) :
    (k.getKey false).bind (a.verify E input sig) = .ok () ↔ Accepts E k input sig a := by
  cases a with
  | es h =>
    rw [bind_ok_iff]
    constructor
    · rintro ⟨ka, hka, hv⟩
      simp only [SigAlg.verify, Bind.bind] at hv
      obtain ⟨C, hC, hv⟩ := bind_ok_iff.mp hv
      split at hv
      · obtain ⟨P, hP, hv⟩ := bind_ok_iff.mp hv
        obtain ⟨b, hb, hv⟩ := bind_ok_iff.mp hv
        cases b
        · simp at hv
        · exact ⟨C, P, (esCurve_iff h C).mp hC, (esPub_iff k P).mp (by rw [hka]; exact hP), hb⟩
      · simp at hv
    · rintro ⟨C, P, hC, hP, hv⟩
      obtain ⟨ka, hka, hP⟩ := bind_ok_iff.mp ((esPub_iff k P).mpr hP)
      refine ⟨ka, hka, ?_⟩
      simp only [SigAlg.verify, Bind.bind, Except.bind, (esCurve_iff h C).mpr hC,
        nistVerify_range hv, if_true, hP, hv]
  | hs h =>
    by_cases hec : IsEc k
    · obtain ⟨crv, x, y, d, c, hm⟩ := hec
      have : ¬ Accepts E k input sig (.hs h) := fun ⟨h, _⟩ => h ⟨crv, x, y, d, c, hm⟩
      simp only [this, iff_false]
      rw [getKey_ec hm]
      split <;> simp [Except.bind, SigAlg.verify, hmacKey, Bind.bind]
    · rw [getKey_not_ec hec]
      simp only [Except.bind, SigAlg.verify, Bind.bind, Accepts, hec, not_false_eq_true, true_and]
      cases hk : k.key with
      | val v =>
        cases v <;> simp [hmacKey, constantTimeCompare_iff]
        rename_i b
        exact eq_comm
      | rsa r => simp [hmacKey]
      | curve c => simp [hmacKey]
  | rs h =>
    by_cases hec : IsEc k
    · obtain ⟨crv, x, y, d, c, hm⟩ := hec
      have : ¬ Accepts E k input sig (.rs h) := fun ⟨h, _⟩ => h ⟨crv, x, y, d, c, hm⟩
      simp only [this, iff_false]
      rw [getKey_ec hm]
      split <;> simp [Except.bind, SigAlg.verify, rsaKeyArg, Bind.bind]
    · rw [getKey_not_ec hec]
      simp only [Except.bind, SigAlg.verify, Bind.bind, Accepts, hec, not_false_eq_true, true_and]
      cases hk : k.key with
      | val v => simp [rsaKeyArg]
      | curve c => simp [rsaKeyArg]
      | rsa r =>
        simp only [rsaKeyArg, KObj.rsa.injEq, exists_eq_left']
        cases hv : E.R.verify15 h r input sig with
        | ok b => cases b <;> simp
        | error e => simp only [reduceCtorEq, iff_false]; split <;> simp
  | ps h =>
    by_cases hec : IsEc k
    · obtain ⟨crv, x, y, d, c, hm⟩ := hec
      have : ¬ Accepts E k input sig (.ps h) := fun ⟨h, _⟩ => h ⟨crv, x, y, d, c, hm⟩
      simp only [this, iff_false]
      rw [getKey_ec hm]
      split <;> simp [Except.bind, SigAlg.verify, rsaKeyArg, Bind.bind]
    · rw [getKey_not_ec hec]
      simp only [Except.bind, SigAlg.verify, Bind.bind, Accepts, hec, not_false_eq_true, true_and]
      cases hk : k.key with
      | val v => simp [rsaKeyArg]
      | curve c => simp [rsaKeyArg]
      | rsa r =>
        simp only [rsaKeyArg, KObj.rsa.injEq, exists_eq_left']
        cases hv : E.R.verifyPss h r input sig with
        | ok b => cases b <;> simp
        | error e => simp

theorem verifyLoop_ok {E : Env} {a : SigAlg} {input sig : Bytes} : ∀ {ks : List Key} {k : Key},
    verifyLoop E a input sig ks = .ok k →
    ∃ pre post, ks = pre ++ k :: post ∧ Accepts E k input sig a ∧
      ∀ x ∈ pre, ∃ e, (x.getKey false).bind (a.verify E input sig) = .error e ∧
        (e = .badSignature ∨ e = .indexError)
  | [], k, h => by simp [verifyLoop] at h
  | x :: l, k, h => by
    unfold verifyLoop at h
    split at h
    · rename_i hx
      cases h
      exact ⟨[], l, rfl, (verify_iff E a _ input sig).mp hx, by simp⟩
    · rename_i e he
      split at h
      · rename_i hcaught
        obtain ⟨pre, post, rfl, hA, hpre⟩ := verifyLoop_ok h
        refine ⟨x :: pre, post, rfl, hA, ?_⟩
        rintro y (_ | ⟨_, hy⟩)
        · exact ⟨e, he, hcaught⟩
        · exact hpre y hy
      · simp at h

theorem verifyLoop_of {E : Env} {a : SigAlg} {input sig : Bytes} : ∀ {pre : List Key} {k : Key}
    {post : List Key}, Accepts E k input sig a →
    (∀ x ∈ pre, ∃ e, (x.getKey false).bind (a.verify E input sig) = .error e ∧
        (e = .badSignature ∨ e = .indexError)) →
    verifyLoop E a input sig (pre ++ k :: post) = .ok k
  | [], k, post, hA, _ => by
    simp only [List.nil_append, verifyLoop, (verify_iff E a k input sig).mpr hA]
  | x :: pre, k, post, hA, h => by
    obtain ⟨e, he, hc⟩ := h x (by simp)
    simp only [List.cons_append, verifyLoop, he, if_pos hc]
    exact verifyLoop_of hA (fun y hy => h y (by simp [hy]))

/-! ### Inversion of `verify_compact_verbose` -/

theorem getItem_alg {h : PyVal} {a : PyVal} (hh : h.getItem "alg" = .ok a) :
    ∃ d, h = .dict d ∧ PyDict.get? d "alg" = some a := by
  unfold PyVal.getItem at hh
  split at hh
  · split at hh
    · cases hh; exact ⟨_, rfl, by assumption⟩
    · simp at hh
  · simp at hh

theorem getItem_keyError {h : PyVal} {k : String} (hh : h.getItem k = .error .keyError) :
    ∃ d, h = .dict d ∧ PyDict.get? d k = none := by
  unfold PyVal.getItem at hh
  split at hh
  · split at hh
    · simp at hh
    · exact ⟨_, rfl, by assumption⟩
  · simp at hh

theorem headerAlg_none {j : Jwt} {a : PyVal} (h : j.headerAlg = .ok (a, true)) :
    ∃ d, j.headers = .dict d ∧ PyDict.get? d "alg" = some a ∧ NoneName a := by
  unfold Jwt.headerAlg at h
  split at h
  · simp at h
  · simp at h
  · rename_i a' ha
    obtain ⟨d, hd, hg⟩ := getItem_alg ha
    split at h
    · rename_i hn
      simp only [Except.ok.injEq, Prod.mk.injEq, and_true] at h
      subst h
      exact ⟨d, hd, hg, .inl hn⟩
    · simp only [Bind.bind, Except.bind] at h
      split at h
      · simp at h
      · rename_i l hl
        simp only [Except.ok.injEq, Prod.mk.injEq, beq_iff_eq] at h
        obtain ⟨rfl, rfl⟩ := h
        refine ⟨d, hd, hg, ?_⟩
        rcases a' with _ | _ | _ | _ | s | _ | _ | _ <;> simp [PyVal.lower] at hl
        exact .inr ⟨s, rfl, hl⟩

theorem headerAlg_some {j : Jwt} {a : PyVal} (h : j.headerAlg = .ok (a, false)) :
    ∃ d, j.headers = .dict d ∧ ((PyDict.get? d "alg" = some a ∧ ¬ NoneName a ∧
      (∃ s, a = .str s) ∨ (∃ b, a = .bytes b)) ∨
      (PyDict.get? d "alg" = none ∧ a = .none)) := by
  unfold Jwt.headerAlg at h
  split at h
  · rename_i hk
    obtain ⟨d, hd, hg⟩ := getItem_keyError hk
    simp only [Except.ok.injEq, Prod.mk.injEq, and_true] at h
    exact ⟨d, hd, .inr ⟨hg, h.symm⟩⟩
  · simp at h
  · rename_i a' ha
    obtain ⟨d, hd, hg⟩ := getItem_alg ha
    split at h
    · simp at h
    · rename_i hn
      simp only [Bind.bind, Except.bind] at h
      split at h
      · simp at h
      · rename_i l hl
        simp only [Except.ok.injEq, Prod.mk.injEq] at h
        obtain ⟨rfl, hne⟩ := h
        refine ⟨d, hd, .inl ?_⟩
        rcases a' with _ | _ | _ | _ | s | _ | _ | _ <;> simp [PyVal.lower] at hl
        · subst hl
          refine .inl ⟨hg, ?_, s, rfl⟩
          rintro (h | ⟨s', h, h'⟩)
          · simp at h
          · cases h
            simp [h'] at hne
        · exact .inr ⟨_, rfl⟩

/-- Everything known when `verify_compact_verbose` returns. -/
theorem verifyVerbose_ok {E : Env} {o : Jwx} {jws : Bytes} {keys : List Key} {an : Bool}
    {sigalg m : PyVal} {ok : Option Key}
    (h : (o.verifyVerbose E jws keys an sigalg).1 = .ok (m, ok)) :
    ∃ jwt hdr, Jwt.unpack jws = .ok jwt ∧ jwt.part.length = 3 ∧ jwt.headers = .dict hdr ∧
      jwt.payload E.jsonBytes = .ok m ∧
      ((ok = none ∧ an = true ∧ (∃ v, PyDict.get? hdr "alg" = some v ∧ NoneName v) ∧
        (o.verifyVerbose E jws keys an sigalg).2 = { o with jwt := some jwt, msg := m }) ∨
       ∃ k name a src ks inp sig, ok = some k ∧ PyDict.get? hdr "alg" = some (.str name) ∧
        SupportedAlg name a ∧
        (∀ v, PyDict.get? o.dict "alg" = some v → v = .str name) ∧
        (sigalg.truthy = true → sigalg = .str name) ∧
        ({ o with jwt := some jwt, dict := PyDict.set o.dict "alg" (.str name) } : Jwx).keySource E keys
          = .ok src ∧
        ({ o with jwt := some jwt, dict := PyDict.set o.dict "alg" (.str name) } : Jwx).pickKeys
          alg2keytype src "" (.str "") = .ok ks ∧
        jwt.signInput = .ok inp ∧ jwt.part[2]? = some sig ∧
        verifyLoop E a inp sig ks = .ok k ∧
        (o.verifyVerbose E jws keys an sigalg).2 =
          { o with jwt := some jwt, dict := PyDict.set o.dict "alg" (.str name), msg := m,
                   key := some k }) := by
  unfold Jwx.verifyVerbose at h ⊢
  split at h
  · simp at h
  rename_i jwt hj
  simp only [hj]
  split at h
  · simp at h
  rename_i hlen
  simp only [ne_eq, Decidable.not_not] at hlen
  simp only [ne_eq, hlen, not_true_eq_false, if_false]
  simp only at h
  generalize hx : jwt.headerAlg = x at h ⊢
  split at h
  · simp at h
  · -- alg none
    rename_i alg
    split at h
    · rename_i han
      split at h
      · rename_i m' hm
        simp only [Except.ok.injEq, Prod.mk.injEq] at h
        obtain ⟨rfl, rfl⟩ := h
        obtain ⟨d, hd, hg, hn⟩ := headerAlg_none hx
        refine ⟨jwt, d, rfl, hlen, hd, hm, .inl ⟨rfl, han, ⟨_, hg, hn⟩, ?_⟩⟩
        simp [han]
      · simp at h
    · simp at h
  · rename_i alg
    split at h
    · simp at h
    rename_i hown
    split at h
    · split at h <;> simp at h
    rename_i hsig
    split at h
    · rename_i k m' hr
      simp only [Except.ok.injEq, Prod.mk.injEq] at h
      obtain ⟨rfl, rfl⟩ := h
      have hr' := hr
      simp only [Bind.bind] at hr
      obtain ⟨src, hsrc, h1⟩ := bind_ok_iff.mp hr
      obtain ⟨ks, hks, h2⟩ := bind_ok_iff.mp h1
      clear hr h1
      by_cases hke : ks.isEmpty = true
      · simp [hke] at h2
      rw [if_neg hke] at h2
      generalize hsg : signerOf alg = sg at h2
      rcases sg with _ | _ | a
      · simp at h2
      · simp at h2
      simp only at h2
      obtain ⟨name, rfl, hsup⟩ := (signerOf_iff _ _).mp hsg
      obtain ⟨inp, hinp, h3⟩ := bind_ok_iff.mp h2
      obtain ⟨sig, hsg2, h4⟩ := bind_ok_iff.mp h3
      obtain ⟨k', hk', h5⟩ := bind_ok_iff.mp h4
      obtain ⟨m'', hm, h6⟩ := bind_ok_iff.mp h5
      simp only [Except.ok.injEq, Prod.mk.injEq] at h6
      obtain ⟨rfl, rfl⟩ := h6
      have hne := (supported_alg2keytype hsup).2.1
      obtain ⟨d, hd, hg⟩ := headerAlg_some hx
      have hg : PyDict.get? d "alg" = some (.str name) := by
        rcases hg with (⟨h, -⟩ | ⟨b, h⟩) | ⟨-, h⟩
        · exact h
        · simp at h
        · simp at h
      · refine ⟨jwt, d, rfl, hlen, hd, hm, .inr ⟨k', name, a, src, ks, inp, sig, rfl, hg, hsup, ?_, ?_,
          hsrc, hks, hinp, ?_, hk', ?_⟩⟩
        · intro v hv
          simp only [Jwx.algConflict, hv] at hown
          have : (PyVal.str name).truthy = true := by simp [PyVal.truthy, hne]
          simp only [this, Bool.true_and, Bool.not_eq_true', Bool.not_eq_false, pyEq_str_iff] at hown
          exact hown
        · intro ht
          simp only [ht, Bool.true_and, Bool.not_eq_true', Bool.not_eq_false, pyEq_str_iff] at hsig
          exact hsig
        · split at hsg2
          · cases hsg2; assumption
          · simp at hsg2
        · simp only [hown, hsig, if_false, Bool.false_eq_true]
    · simp at h

end Verif
