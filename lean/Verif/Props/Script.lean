import Verif.Props.Nested
import Verif.Props.JwkNew
import Verif.Props.JweForm
import Verif.Model.Script
/-
C102-C104: the command line tools of `/repo/script`.
-/

namespace Verif
open Spec

/-! ### Unsigned tokens -/

/-- Without an algorithm there is always a token, and it is unsigned: whatever the keys. -/
theorem sign_unsigned (E : Env) (o : Jwx) (keys : List Key) (hkne : keys ≠ []) (prot : PyDict) (rnd : Nat)
    (hA : AlgFor o keys (.str "none")) (hself : PyDict.get? prot "self" = none)
    (hp : (PyVal.dict prot).jsonable = true)
    (hty : ∀ v, PyDict.get? o.dict "typ" = some v → v.jsonable = true) (hmsg : PartOk o.msg) :
    ∃ t s0 s1 p hdr, (o.signCompact E keys prot rnd).1 = .ok t ∧ Token (utf8Encode t) s0 s1 (.dict hdr) p [] ∧
      PyDict.get? hdr "alg" = some (.str "none") ∧ PartBytes o.msg p ∧
      PyDict.get? hdr "typ" = (PyDict.get? o.dict "typ").or (PyDict.get? prot "typ") := by
  have hsp := pickAlg_spec o keys
  obtain ⟨hm1, hjwk, hjwt, hdict⟩ := pickAlg_state o keys
  have halg := algFor_unique hsp hA
  have hjs := signHeader_jsonable o prot (.str "none") none hp rfl (by simp) hty
  have hspec := signHeader_spec o prot (.str "none") none
  obtain ⟨b, p, hinit⟩ := jwt_init_ok (signHeader o prot (.str "none") none)
    (by rw [hspec.2.2.2 "self" (by decide) (by decide) (by decide)]; exact hself) hjs
    (by rw [hspec.1]; exact algFor_truthy hA)
  obtain ⟨s, hdr, bs, hpk, h1, h2, h3, h4, h5⟩ := pack_text
    ⟨.dict (signHeader o prot (.str "none") none), [b], [p]⟩ _ rfl
    (signHeader_ne_nil _ _ _ _) hjs [o.msg, .str ""] (by simp) (by
      intro x hx
      simp only [List.mem_cons, List.not_mem_nil, or_false] at hx
      rcases hx with rfl | rfl
      · exact hmsg
      · trivial)
  have hok : (o.signCompact E keys prot rnd).1 = .ok s := by
    unfold Jwx.signCompact Jwx.algKeys
    generalize o.pickAlg keys = pa at *
    obtain ⟨alg', o1⟩ := pa
    simp only at hm1 hjwk hjwt hdict halg ⊢
    subst halg
    have hsrc : o1.keySource E keys = .ok (keys.map JKey.key) := by
      unfold Jwx.keySource
      rw [if_neg (by simpa using hkne)]
    have hpk' : o1.pickKeys alg2keytype (keys.map JKey.key) "sig" (.str "none") = .ok [] :=
      C19_none _ _ _ _ (by decide) (.inl rfl)
    have hin : isNoneAlg (.str "none") = .ok true := by decide
    simp only [Bind.bind, Except.bind, hsrc, hpk', hin, if_true]
    rw [hdict "typ" (by decide)]
    erw [hinit]
    rw [hm1]
    exact hpk
  rcases h3 with _ | ⟨hp1, _ | ⟨hp2, _ | _⟩⟩
  rename_i p1 p2
  obtain rfl : p2 = [] := by rw [show p2 = utf8Encode "" from hp2]; rfl
  refine ⟨s, b64e (utf8Encode hdr), b64e p1, p1, _, hok, ⟨⟨b64e [], ?_, rfl, by decide⟩, ?_, ?_, ?_⟩, hspec.1, hp1, ?_⟩
  · rw [h5]
    simp [joinDot]
  · exact ⟨b64e_no_dot _, b64e_no_dot _⟩
  · exact ⟨utf8Encode hdr, hdr, C01_roundtrip _, utf8Decode_encode _, h2⟩
  · exact C01_roundtrip _
  · rw [hspec.2.2.1]
    cases PyDict.get? o.dict "typ" <;> rfl

theorem jws_new_alg (E : Env) (msg v : PyVal) : Jws.new E msg [("alg", v)] = .ok { msg, dict := [("alg", v)] } := by
  rfl

/-- The object that `sign` makes. -/
theorem utilSign_eq (E : Env) (msg : PyVal) (keys : List Key) (alg : PyVal) (ty : Option String) (rnd : Nat) :
    ∃ d, utilSign E msg keys alg (optStr ty) rnd = (({ msg, dict := d } : Jwx).signCompact E keys [] rnd).1 ∧
      PyDict.get? d "alg" = some alg ∧ PyDict.get? d "kid" = none ∧
      (∀ v, PyDict.get? d "typ" = some v → v.jsonable = true) ∧
      ∀ v, PyDict.get? d "typ" = some v ↔ ∃ s, ty = some s ∧ s ≠ "" ∧ v = .str s := by
  unfold utilSign
  simp only [jws_new_alg, Bind.bind, Except.bind]
  split
  · rename_i ht
    refine ⟨_, rfl, rfl, rfl, ?_, ?_⟩
    · intro v hv
      simp only [PyDict.set] at hv
      cases ty <;> (cases hv; rfl)
    · intro v
      cases ty with
      | none => cases ht
      | some s =>
        have hs : s ≠ "" := by rintro rfl; exact absurd ht (by decide)
        constructor
        · intro hv
          cases hv
          exact ⟨s, rfl, hs, rfl⟩
        · rintro ⟨s', h, -, rfl⟩
          cases h
          rfl
  · rename_i ht
    refine ⟨_, rfl, rfl, rfl, ?_, ?_⟩
    · intro v hv
      simp [PyDict.get?, List.lookup] at hv
    · intro v
      constructor
      · intro hv
        simp [PyDict.get?, List.lookup] at hv
      · rintro ⟨s, rfl, hs, -⟩
        exact absurd (by simpa [optStr, PyVal.truthy, String.isEmpty_iff] using hs) ht

/-! ### jwkutil.py -/

/-- **C102.** `-s` without `-a` prints an unsigned token although keys are given. -/
theorem C102_unsigned (E : Env) (a : UtilArgs) (keys : List Key) (hk : a.keys E = .ok keys) (hne : keys ≠ [])
    (hs : a.sign = true) (he : a.encrypt = false) (ha : given a.alg = none) (rnd : Nat) (jrnd : JweRnd) :
    ∃ t s0 s1 p hdr, utilMain E a rnd jrnd = .ok (.printed [.str t]) ∧
      Token (utf8Encode t) s0 s1 (.dict hdr) p [] ∧ PyDict.get? hdr "alg" = some (.str "none") ∧
      (∀ m, a.message = some m → p = utf8Encode m) ∧
      (∀ v, PyDict.get? hdr "typ" = some v ↔ ∃ s, a.msgtype = some s ∧ s ≠ "" ∧ v = .str s) := by
  obtain ⟨d, hd, h1, h2, h3, h4⟩ := utilSign_eq E (optStr a.message) keys (optStr a.alg) a.msgtype rnd
  have htr : (optStr a.alg).truthy = false := by
    unfold given at ha
    cases hg : a.alg with
    | none => rfl
    | some s =>
      rw [hg] at ha
      simp only [ite_eq_left_iff, Bool.not_eq_true, reduceCtorEq, imp_false, Bool.not_eq_false] at ha
      simp [optStr, PyVal.truthy, String.isEmpty_iff.mp ha]
  obtain ⟨t, s0, s1, p, hdr, ht, hT, hal, hp, hty⟩ := sign_unsigned E { msg := optStr a.message, dict := d } keys hne []
    rnd (.inr (.inr ⟨.inl ⟨_, h1, htr⟩, rfl⟩)) rfl rfl h3 (by cases a.message <;> trivial)
  refine ⟨t, s0, s1, p, hdr, ?_, hT, hal, ?_, fun v => ?_⟩
  · unfold utilMain
    simp only [hk, Bind.bind, Except.bind, List.isEmpty_iff, hne, if_false, hs, if_true, he, hd, ht, Bool.false_eq_true]
  · intro m hm
    simp only [hm] at hp
    exact hp
  · rw [hty, ← h4 v]
    cases PyDict.get? d "typ" <;> rfl

/-- **C102.** `-v` refuses the unsigned token, whatever the keys. -/
theorem C102_unsigned_refused (E : Env) (a : UtilArgs) (keys : List Key) (hk : a.keys E = .ok keys) (hne : keys ≠ [])
    (hs : a.sign = false) (he : a.encrypt = false) (hd : a.decrypt = false) (hv : a.verify = true)
    (t : String) (hm : a.message = some t) (s0 s1 p sig : Bytes) (hdr : PyDict)
    (hT : Token (utf8Encode t) s0 s1 (.dict hdr) p sig) (hal : PyDict.get? hdr "alg" = some (.str "none"))
    (rnd : Nat) (jrnd : JweRnd) : utilMain E a rnd jrnd = .error .signerAlgError := by
  have h := C12_refused E {} (utf8Encode t) keys .none s0 s1 hdr p sig hT _ hal (.inr ⟨_, rfl, by decide⟩)
  unfold utilMain
  simp only [hk, Bind.bind, Except.bind, List.isEmpty_iff, hne, if_false, hs, he, hd, hv, hm, if_true, utilVerifyMsg,
    utilVerify, h, Bool.false_eq_true]

/-- A token is longer than two bytes: its header is not empty. -/
theorem token_length {jws s0 s1 p sig : Bytes} {hdr : PyDict} (h : Token jws s0 s1 (.dict hdr) p sig) :
    jws.length ≠ 2 := by
  obtain ⟨s2, hj, -, -⟩ := h.text
  obtain ⟨hb, hs, h1, h2, h3⟩ := h.header
  intro hl
  rw [hj] at hl
  simp only [List.length_append, List.length_cons] at hl
  obtain rfl : s0 = [] := List.eq_nil_of_length_eq_zero (by omega)
  have : b64d [] = .ok [] := C01_roundtrip []
  rw [this] at h1
  cases h1
  have : utf8Decode [] = .ok "" := utf8Decode_encode ""
  rw [this] at h2
  cases h2
  have : jsonLoads "" = .error .jsonDecodeError := by decide
  rw [this] at h3
  cases h3

/-- **C102.** `-d` never prints anything; with `-v` it never ends normally. -/
theorem C102_decrypt_silent (E : Env) (a : UtilArgs) (hs : a.sign = false) (he : a.encrypt = false)
    (hd : a.decrypt = true) (rnd : Nat) (jrnd : JweRnd) (r : Outcome) (h : utilMain E a rnd jrnd = .ok r) :
    (r = .exit ∧ a.keys E = .ok []) ∨ (r = .printed [] ∧ a.verify = false) := by
  unfold utilMain at h
  simp only [Bind.bind] at h
  obtain ⟨keys, hk, h1⟩ := bind_ok_iff.mp h
  split at h1
  · rename_i hem
    left
    cases h1
    exact ⟨rfl, by rw [hk, List.isEmpty_iff.mp hem]⟩
  · simp only [hs, he, Bool.false_eq_true, if_false] at h1
    obtain ⟨b, hb, h2⟩ := bind_ok_iff.mp h1
    obtain ⟨u, hu, h3⟩ := bind_ok_iff.mp h2
    right
    split at h3
    · simp at h3
    · rename_i hv
      cases h3
      exact ⟨rfl, by simpa using hv⟩

/-- **C102.** What `-d` has decrypted is lost: unless it is two bytes long the tool ends with `ValueError`. -/
theorem C102_decrypt_fails (E : Env) (a : UtilArgs) (keys : List Key) (hk : a.keys E = .ok keys) (hne : keys ≠ [])
    (hs : a.sign = false) (he : a.encrypt = false) (hd : a.decrypt = true) (rnd : Nat) (jrnd : JweRnd)
    (token : String) (hm : a.message = some token) (plain : Bytes)
    (h : (({} : Jwe).decrypt E jrnd (utf8Encode token) keys).1 = .ok plain) (hl : plain.length ≠ 2) :
    utilMain E a rnd jrnd = .error .valueError := by
  have hu : unpackTwo plain = .error .valueError := by
    unfold unpackTwo
    split
    · simp at hl
    · rfl
  unfold utilMain
  simp only [hk, Bind.bind, Except.bind, List.isEmpty_iff, hne, if_false, hs, he, hd, if_true, hm, Option.getD,
    utilDecrypt, h, hu, Bool.false_eq_true]

/-! A secret given with `-k` -/

/-- The key object. -/
def secretKey (secret : String) : Key :=
  keyCommon "oct" symArgs [] (.val (.bytes (utf8Encode secret))) (.sym (.str ""))

theorem symKeyNew_text (secret : String) : symKeyNew [] (.str secret) = .ok (secretKey secret) := by
  unfold symKeyNew
  have h : (kwGet [] "k" (.str "")).truthy = false := by decide
  simp only [show PyDict.has [] "self" = false from rfl, h, Bool.false_eq_true, if_false, and_false]
  rfl

theorem keys_secret (E : Env) (a : UtilArgs) (secret : String) (h : a.hmacKey = some secret) (hne : secret ≠ "")
    (h1 : a.rsa = none) (h2 : a.jwk = none) (h3 : a.jwks = none) (h4 : a.jwksUrl = none) :
    a.keys E = .ok [secretKey secret] := by
  have hg : secret.isEmpty = false := by
    rw [Bool.eq_false_iff, ne_eq, String.isEmpty_iff]; exact hne
  simp only [UtilArgs.keys, UtilArgs.rsaKeys, UtilArgs.hmacKeys, UtilArgs.jwkKeys, UtilArgs.jwksKeys, UtilArgs.urlKeys,
    h, h1, h2, h3, h4, hg, given, Bool.false_eq_true, if_false, Bind.bind, Except.bind, symKeyNew_text, List.nil_append, List.append_nil]

theorem secretKey_blank (secret : String) : (secretKey secret).alg.truthy = false ∧
    (secretKey secret).use.truthy = false ∧ (secretKey secret).kid.truthy = false :=
  ⟨show (PyVal.str "").truthy = false by decide, show (PyVal.str "").truthy = false by decide,
    show (PyVal.str "").truthy = false by decide⟩

theorem secretKey_suitable (secret : String) (h : HashAlg) (name : String) :
    SignSuitable (.hs h) name .none (secretKey secret) :=
  ⟨⟨.inl rfl, fun h => by simp [none_truthy] at h, fun h => absurd h (by simp [secretKey_blank])⟩,
      fun h => absurd h (by simp [secretKey_blank])⟩

theorem secretKey_shared {secret : String} (hne : secret ≠ "") : SharedKey (secretKey secret) (utf8Encode secret) := by
  refine ⟨⟨_, rfl⟩, rfl, fun h => hne ?_⟩
  have h1 := utf8Decode_encode secret
  rw [h] at h1
  have h2 : utf8Decode [] = .ok "" := utf8Decode_encode ""
  rw [h2] at h1
  exact (Except.ok.inj h1).symm

theorem secretKey_shaped (secret : String) (h : HashAlg) : Shaped (secretKey secret) (.hs h) :=
  ⟨not_ec (m := .sym (.str "")) rfl (by simp), _, rfl⟩

/-- The value that verification returns for a text: the JSON value if it is JSON, otherwise the text. -/
def Spec.ReadBack (m : String) (v : PyVal) : Prop :=
  jsonLoads m = .ok v ∨ ((∀ w, jsonLoads m ≠ .ok w) ∧ v = .str m)

theorem readBack_of_message {jb : Bytes → PyM PyVal} {hdr : PyDict} {m : String} {v : PyVal}
    (hc : PyDict.get? hdr "cty" = none) (hM : Message jb hdr (utf8Encode m) v) : ReadBack m v := by
  by_cases h : ∃ w, jsonLoads m = .ok w
  · obtain ⟨w, h⟩ := h
    have : Message jb hdr (utf8Encode m) w := ⟨.str m, .inl ⟨m, rfl, rfl⟩, .inr ⟨.inl hc, .inl (.inl ⟨m, rfl, h⟩)⟩⟩
    rw [message_unique hM this]
    exact .inl h
  · have hn : ∀ w, jsonLoads m ≠ .ok w := fun w hw => h ⟨w, hw⟩
    exact .inr ⟨hn, C11_text_message jb hdr m v hn hM⟩

/-- A symmetric key without restrictions: text label or none. -/
structure Spec.PlainSecret (k : Key) (secret : Bytes) : Prop where
  kty : k.kty = .str "oct"
  kid : ∃ s, k.kid = .str s
  alg : k.alg.truthy = false
  use : k.use.truthy = false
  mat : ∃ kk, k.mat = .sym kk
  key : k.key = .val (.bytes secret)

theorem secretKey_plain (secret : String) : PlainSecret (secretKey secret) (utf8Encode secret) where
  kty := rfl
  kid := ⟨_, rfl⟩
  alg := (secretKey_blank secret).1
  use := (secretKey_blank secret).2.1
  mat := ⟨_, rfl⟩
  key := rfl

/-- Signing and verifying with the tool, given the same single key. -/
theorem util_roundtrip {E : Env} (hE : Standard E) (hjb : JsonBytesLawful E.jsonBytes) (k : Key) (secret : Bytes)
    (hps : PlainSecret k secret) (name : String) (h : HashAlg) (hsup : SupportedAlg name (.hs h)) (m : String)
    (ty : Option String) (rnd : Nat) (jrnd : JweRnd) (a b : UtilArgs) (ha : a.keys E = .ok [k])
    (hb : ∀ t, ({ b with message := some t } : UtilArgs).keys E = .ok [k])
    (a1 : a.sign = true) (a2 : a.encrypt = false) (a3 : a.alg = some name) (a4 : a.msgtype = ty)
    (a5 : a.message = some m) (b1 : b.verify = true) (b2 : b.sign = false) (b3 : b.encrypt = false)
    (b4 : b.decrypt = false) :
    ∃ t v, utilMain E a rnd jrnd = .ok (.printed [.str t]) ∧
      (∀ rnd' jrnd', utilMain E { b with message := some t } rnd' jrnd' = .ok (.printed [v])) ∧ ReadBack m v := by
  obtain ⟨kid, hkid⟩ := hps.kid
  obtain ⟨kk, hmat⟩ := hps.mat
  have hsuit : SignSuitable (.hs h) name .none k :=
    ⟨⟨.inl hps.kty, fun h => by simp [none_truthy] at h, fun h => absurd h (by simp [hps.alg])⟩,
      fun h => absurd h (by simp [hps.use])⟩
  have hsh : Shaped k (.hs h) := ⟨not_ec (m := .sym kk) hmat (by simp), _, hps.key⟩
  obtain ⟨d, hd, h1, h2, h3, -⟩ := utilSign_eq E (.str m) [k] (.str name) ty rnd
  have hnn : (PyVal.str name).truthy = true := by cases hsup <;> decide
  obtain ⟨t, ht, hv⟩ := C100_sign_verify hE { msg := .str m, dict := d } [k] (by simp) [] rnd name
    (.hs h) hsup (.inl ⟨h1, hnn⟩) .none (.inr ⟨h2, .inl ⟨rfl, rfl⟩⟩) k
    ⟨[], [], rfl, hsuit, by simp⟩
    (C100_hmac E h rnd hsh.1 hps.key) rfl rfl
    (by intro k' hk'; simp at hk'; subst hk'; rw [hkid]; exact ⟨rfl, by simp [PyVal.pyEq]⟩) h3
    (by intro k _; right; rfl) (.inl rfl) trivial hjb
    (by intro k' hk' _; simp at hk'; subst hk'; exact hsh)
  obtain ⟨v, k', hdr, p, key, hv, hS, hP, hM⟩ := hv false .none (by simp [none_truthy])
  have hP : p = utf8Encode m := hP
  subst hP
  refine ⟨t, v, ?_, fun rnd' jrnd' => ?_, readBack_of_message (by
    rw [hS.2.2.2 "cty" (by decide) (by decide) (by decide)]; rfl) hM⟩
  · unfold utilMain
    rw [ha]
    simp only [Bind.bind, Except.bind, List.isEmpty_cons, Bool.false_eq_true, if_false, if_true, a1, a2, a3, a4, a5]
    erw [hd, ht]
  · unfold utilMain
    rw [hb]
    simp only [Bind.bind, Except.bind, List.isEmpty_cons, Bool.false_eq_true, if_false, if_true, utilVerifyMsg,
      utilVerify, Jwx.verifyCompact, hv, Except.map, b1, b2, b3, b4]

/-- The keys that an option of `jwkutil.py` contributes: none if the option is absent. -/
def Spec.Contributes {α : Type} (opt : Option α) (P : α → List Key → Prop) (ks : List Key) : Prop :=
  (opt = none ∧ ks = []) ∨ ∃ x, opt = some x ∧ P x ks

theorem loadedKeys_ok {E : Env} {text : String} {ks : List Key} (h : loadedKeys E text = .ok ks) :
    Keys.loadJwks E [] text = (.ok (), ks) := by
  unfold loadedKeys at h
  simp only [Bind.bind] at h
  obtain ⟨u, hu, h⟩ := bind_ok_iff.mp h
  exact Prod.ext hu (Except.ok.inj h)

/-- **C102.** The keys of the tool: the RSA key of `-r`, with the kid given by the option or none; the secret of
`-k`; the key that `-j` describes; the keys of the set `-J`; the keys of the set found at `-u`; in this order. -/
theorem C102_keys (E : Env) (a : UtilArgs) (keys : List Key) (h : a.keys E = .ok keys) :
    ∃ k1 k2 k3 k4 k5, keys = k1 ++ k2 ++ k3 ++ k4 ++ k5 ∧
      Contributes a.rsa (fun r ks => ∃ rk k, r = .ok rk ∧ ks = [k] ∧ k.key = .rsa rk ∧ k.kty = .str "RSA" ∧
        (∀ s, a.kid = some s → k.kid = .str s) ∧ (a.kid = none → k.kid = .none)) k1 ∧
      Contributes a.hmacKey (fun s ks => (s = "" ∧ ks = []) ∨
        (s ≠ "" ∧ ∃ k, ks = [k] ∧ PlainSecret k (utf8Encode s))) k2 ∧
      Contributes a.jwk (fun text ks => ∃ d k, jsonLoads text = .ok (.dict d) ∧ keyrep E d = .ok k ∧ ks = [k]) k3 ∧
      Contributes a.jwks (fun text ks => Keys.loadJwks E [] text = (.ok (), ks)) k4 ∧
      Contributes a.jwksUrl (fun url ks => (url = "" ∧ ks = []) ∨ (url ≠ "" ∧
        ∃ text, E.httpGet (.str url) = .ok text ∧ Keys.loadJwks E [] text = (.ok (), ks))) k5 := by
  unfold UtilArgs.keys at h
  simp only [Bind.bind] at h
  obtain ⟨k1, h1, h⟩ := bind_ok_iff.mp h
  obtain ⟨k2, h2, h⟩ := bind_ok_iff.mp h
  obtain ⟨k3, h3, h⟩ := bind_ok_iff.mp h
  obtain ⟨k4, h4, h⟩ := bind_ok_iff.mp h
  obtain ⟨k5, h5, h⟩ := bind_ok_iff.mp h
  refine ⟨k1, k2, k3, k4, k5, (Except.ok.inj h).symm, ?_, ?_, ?_, ?_, ?_⟩
  · unfold UtilArgs.rsaKeys at h1
    split at h1
    · rename_i hr
      exact .inl ⟨hr, (Except.ok.inj h1).symm⟩
    · rename_i r hr
      simp only [Bind.bind] at h1
      obtain ⟨rk, hrk, h1⟩ := bind_ok_iff.mp h1
      obtain ⟨k, hk, h1⟩ := bind_ok_iff.mp h1
      obtain ⟨k', m, e1, e2, -, -, e3⟩ := rsaKeyNew_rsa E [("kid", optStr a.kid)] rk "" "" rfl rfl rfl (.inl rfl) (.inl rfl)
      rw [hk] at e1
      obtain rfl := Except.ok.inj e1
      refine .inr ⟨r, hr, rk, k, hrk, (Except.ok.inj h1).symm, e2, ?_, ?_, ?_⟩
      · exact e3.labels.kty
      · intro s hs
        rw [hs] at e3
        exact e3.labels.kid
      · intro hs
        rw [hs] at e3
        exact e3.labels.kid
  · unfold UtilArgs.hmacKeys at h2
    cases hh : a.hmacKey with
    | none => rw [hh] at h2; exact .inl ⟨rfl, (Except.ok.inj h2).symm⟩
    | some s =>
      refine .inr ⟨s, rfl, ?_⟩
      rw [hh] at h2
      by_cases he : s = ""
      · subst he
        exact .inl ⟨rfl, (Except.ok.inj h2).symm⟩
      · have hg : s.isEmpty = false := by
          rw [Bool.eq_false_iff, ne_eq, String.isEmpty_iff]; exact he
        simp only [given, hg, Bool.false_eq_true, if_false, symKeyNew_text, Bind.bind, Except.bind] at h2
        exact .inr ⟨he, _, (Except.ok.inj h2).symm, secretKey_plain s⟩
  · unfold UtilArgs.jwkKeys at h3
    split at h3
    · rename_i hr
      exact .inl ⟨hr, (Except.ok.inj h3).symm⟩
    · rename_i text hr
      simp only [Bind.bind] at h3
      obtain ⟨v, hv, h3⟩ := bind_ok_iff.mp h3
      split at h3
      · obtain ⟨k, hk, h3⟩ := bind_ok_iff.mp h3
        exact .inr ⟨text, hr, _, k, hv, hk, (Except.ok.inj h3).symm⟩
      · simp at h3
  · unfold UtilArgs.jwksKeys at h4
    split at h4
    · rename_i hr
      exact .inl ⟨hr, (Except.ok.inj h4).symm⟩
    · rename_i text hr
      exact .inr ⟨text, hr, loadedKeys_ok h4⟩
  · unfold UtilArgs.urlKeys at h5
    cases hh : a.jwksUrl with
    | none => rw [hh] at h5; exact .inl ⟨rfl, (Except.ok.inj h5).symm⟩
    | some s =>
      refine .inr ⟨s, rfl, ?_⟩
      rw [hh] at h5
      by_cases he : s = ""
      · subst he
        exact .inl ⟨rfl, (Except.ok.inj h5).symm⟩
      · have hg : s.isEmpty = false := by
          rw [Bool.eq_false_iff, ne_eq, String.isEmpty_iff]; exact he
        simp only [given, hg, Bool.false_eq_true, if_false, Bind.bind] at h5
        obtain ⟨text, ht, h5⟩ := bind_ok_iff.mp h5
        exact .inr ⟨he, text, ht, loadedKeys_ok h5⟩

/-- **C102.** If every source that is given can be read, the tool has its keys. -/
theorem C102_keys_total (E : Env) (a : UtilArgs) (h1 : ∀ r, a.rsa = some r → ∃ rk, r = .ok rk)
    (h3 : ∀ text, a.jwk = some text → ∃ d k, jsonLoads text = .ok (.dict d) ∧ keyrep E d = .ok k)
    (h4 : ∀ text, a.jwks = some text → ∃ ks, Keys.loadJwks E [] text = (.ok (), ks))
    (h5 : ∀ url, a.jwksUrl = some url → url ≠ "" →
      ∃ text ks, E.httpGet (.str url) = .ok text ∧ Keys.loadJwks E [] text = (.ok (), ks)) :
    ∃ keys, a.keys E = .ok keys := by
  have load : ∀ {text ks}, Keys.loadJwks E [] text = (.ok (), ks) → loadedKeys E text = .ok ks := by
    intro text ks h
    simp only [loadedKeys, h, Bind.bind, Except.bind]
  have e1 : ∃ k1, a.rsaKeys E = .ok k1 := by
    unfold UtilArgs.rsaKeys
    cases hr : a.rsa with
    | none => exact ⟨_, rfl⟩
    | some r =>
      obtain ⟨rk, rfl⟩ := h1 r hr
      obtain ⟨k, m, e, -⟩ := rsaKeyNew_rsa E [("kid", optStr a.kid)] rk "" "" rfl rfl rfl (.inl rfl) (.inl rfl)
      exact ⟨[k], by simp only [e, Bind.bind, Except.bind]⟩
  have e2 : ∃ k2, a.hmacKeys = .ok k2 := by
    unfold UtilArgs.hmacKeys
    cases given a.hmacKey with
    | none => exact ⟨_, rfl⟩
    | some s => exact ⟨_, by simp only [symKeyNew_text, Bind.bind, Except.bind]; rfl⟩
  have e3 : ∃ k3, a.jwkKeys E = .ok k3 := by
    unfold UtilArgs.jwkKeys
    cases hr : a.jwk with
    | none => exact ⟨_, rfl⟩
    | some text =>
      obtain ⟨d, k, e, e'⟩ := h3 text hr
      exact ⟨[k], by simp only [e, e', Bind.bind, Except.bind]⟩
  have e4 : ∃ k4, a.jwksKeys E = .ok k4 := by
    unfold UtilArgs.jwksKeys
    cases hr : a.jwks with
    | none => exact ⟨_, rfl⟩
    | some text =>
      obtain ⟨ks, e⟩ := h4 text hr
      exact ⟨ks, load e⟩
  have e5 : ∃ k5, a.urlKeys E = .ok k5 := by
    unfold UtilArgs.urlKeys
    cases hr : a.jwksUrl with
    | none => exact ⟨_, rfl⟩
    | some url =>
      by_cases he : url = ""
      · subst he
        exact ⟨_, rfl⟩
      · have hg : url.isEmpty = false := by
          rw [Bool.eq_false_iff, ne_eq, String.isEmpty_iff]; exact he
        obtain ⟨text, ks, e, e'⟩ := h5 url hr he
        exact ⟨ks, by simp only [given, hg, Bool.false_eq_true, if_false, e, load e', Bind.bind, Except.bind]⟩
  obtain ⟨k1, e1⟩ := e1
  obtain ⟨k2, e2⟩ := e2
  obtain ⟨k3, e3⟩ := e3
  obtain ⟨k4, e4⟩ := e4
  obtain ⟨k5, e5⟩ := e5
  exact ⟨_, by simp only [UtilArgs.keys, e1, e2, e3, e4, e5, Bind.bind, Except.bind]; rfl⟩

/-- Two options at once: the secret of `-k` comes before the key of `-j`. -/
example : (match UtilArgs.keys toyEnv
      { hmacKey := some "a", jwk := some "{\"kty\": \"oct\", \"k\": \"Yg\"}" } with
    | .ok ks => ks.map fun k => match k.key with
      | .val (.bytes b) => b
      | _ => []
    | .error _ => []) = [[97], [98]] := by decide +kernel

/-- An RSA key and a secret: the hypotheses of `C102_keys_total` hold. -/
example (rk : RsaKey) : ∃ keys, UtilArgs.keys toyEnv { rsa := some (.ok rk), hmacKey := some "a", kid := some "b" } = .ok keys :=
  C102_keys_total toyEnv _ (fun _ h => ⟨rk, (Option.some.inj h).symm⟩) (by simp) (by simp) (by simp)

/-- **C102.** `-s -k secret -a HS*` prints a token that `-v -k secret` accepts; it prints the message. -/
theorem C102_hmac {E : Env} (hE : Standard E) (hjb : JsonBytesLawful E.jsonBytes) (secret : String)
    (hne : secret ≠ "") (name : String) (h : HashAlg) (hsup : SupportedAlg name (.hs h)) (m : String)
    (ty : Option String) (rnd : Nat) (jrnd : JweRnd) :
    ∃ t v, utilMain E { sign := true, hmacKey := some secret, alg := some name, msgtype := ty, message := some m }
        rnd jrnd = .ok (.printed [.str t]) ∧
      (∀ rnd' jrnd', utilMain E { verify := true, hmacKey := some secret, message := some t } rnd' jrnd' =
        .ok (.printed [v])) ∧ ReadBack m v :=
  util_roundtrip hE hjb _ _ (secretKey_plain secret) name h hsup m ty rnd jrnd _
    { verify := true, hmacKey := some secret } (keys_secret E _ secret rfl hne rfl rfl rfl rfl)
    (fun _ => keys_secret E _ secret rfl hne rfl rfl rfl rfl) rfl rfl rfl rfl rfl rfl rfl rfl rfl

/-- **C102.** `-s -e` with a secret prints a nested token; the library recovers the signed token from it, `-d`
and `-d -v` with the same secret end with `ValueError`. -/
theorem C102_nested_lost {E : Env} (hE : Standard E) (secret : String)
    (hne : secret ≠ "") (name : String) (h : HashAlg) (hsup : SupportedAlg name (.hs h)) (m : String)
    {alg enc : String} {n kl il : Nat} (hmn : MgmtName alg (.wrap n)) (he : EncName enc kl il)
    (ty : Option String) (rnd : Nat) (jrnd : JweRnd) (hr : RndLengths jrnd)
    (hlen : ∀ t, utilSign E (.str m) [secretKey secret] (.str name) (optStr ty) rnd = .ok t →
      (utf8Encode t).length ≤ 16 * 2 ^ 32) :
    ∃ t c, utilSign E (.str m) [secretKey secret] (.str name) (optStr ty) rnd = .ok t ∧
      utilMain E { sign := true, encrypt := true, hmacKey := some secret, alg := some name, encalg := some alg, encenc := some enc, msgtype := ty, message := some m }
        rnd jrnd = .ok (.printed [.str c]) ∧
      (∀ rnd2, (({} : Jwe).decrypt E rnd2 (utf8Encode c) [secretKey secret]).1 = .ok (utf8Encode t)) ∧
      ∀ v rnd2 jrnd2, utilMain E { decrypt := true, verify := v, hmacKey := some secret, message := some c }
        rnd2 jrnd2 = .error .valueError := by
  have hk := fun a h => keys_secret E a secret h hne
  obtain ⟨d, hd, h1, h2, h3, -⟩ := utilSign_eq E (.str m) [secretKey secret] (.str name) ty rnd
  have hnn : (PyVal.str name).truthy = true := by cases hsup <;> decide
  obtain ⟨t, ht⟩ := C100_signs E { msg := .str m, dict := d } [secretKey secret] (by simp) [] rnd name
    (.hs h) hsup (.inl ⟨h1, hnn⟩) .none (.inr ⟨h2, .inl ⟨rfl, rfl⟩⟩) (secretKey secret)
    ⟨[], [], rfl, secretKey_suitable secret h name, by simp⟩
    (C100_hmac E h rnd (secretKey_shaped secret h).1 (by rfl)) rfl rfl rfl h3 trivial
  obtain ⟨-, -, -, hdr, p, sig, s0, -, -, hT, -⟩ := sign_parts E { msg := .str m, dict := d } [secretKey secret] (by simp)
    [] rnd t name (.hs h) hsup (.inl ⟨h1, hnn⟩) rfl (by intro k hk; simp at hk; subst hk; rfl) h3 trivial ht
  have hsg := hd.trans ht
  obtain ⟨o, c, hc1, hc2, hc3⟩ := C101_wrap hE hr hmn he (secretKey_shared hne)
    ⟨.inl rfl, fun h => by simp [none_truthy] at h, fun _ h => by simp [secretKey_blank] at h,
      fun h => by simp [secretKey_blank] at h⟩ (secretKey_blank secret).2.2 t (hlen t hsg)
  refine ⟨t, c, hsg, ?_, fun rnd2 => hc3 rnd2 trivial, fun v rnd2 jrnd2 => ?_⟩
  · unfold utilMain
    rw [hk _ rfl rfl rfl rfl rfl]
    simp only [Bind.bind, Except.bind, List.isEmpty_cons, Bool.false_eq_true, if_false, if_true]
    erw [hsg]
    simp only [utilEncrypt, optStr, hc1, Bind.bind, Except.bind, hc2]
  · exact C102_decrypt_fails E _ [secretKey secret] (hk _ rfl rfl rfl rfl rfl) (by simp) rfl rfl rfl rnd2 jrnd2 c rfl _
      (hc3 jrnd2 trivial) (token_length hT)

/-! ### jwenc.py and jwdecrypt.py -/

theorem newline_utf8 {s : String} {c : Char} (hc : (c == '\n' || c == '\r') = true) (h : c ∈ s.toList) :
    (10 : UInt8) ∈ utf8Encode s ∨ (13 : UInt8) ∈ utf8Encode s := by
  simp only [Bool.or_eq_true, beq_iff_eq] at hc
  rcases hc with rfl | rfl
  · exact .inl (List.mem_flatMap.mpr ⟨_, h, by decide⟩)
  · exact .inr (List.mem_flatMap.mpr ⟨_, h, by decide⟩)

theorem dropWhile_none {α : Type} {p : α → Bool} {l : List α} (h : ∀ x ∈ l, p x = false) : l.dropWhile p = l := by
  cases l with
  | nil => rfl
  | cons x l => rw [List.dropWhile_cons_of_neg (by simp [h x (by simp)])]

theorem dropWhile_all {α : Type} {p : α → Bool} {l : List α} (h : ∀ x ∈ l, p x = true) : l.dropWhile p = [] := by
  induction l with
  | nil => rfl
  | cons x l ih => rw [List.dropWhile_cons_of_pos (h x (by simp)), ih fun y hy => h y (by simp [hy])]

/-- A text without newlines survives, whatever newlines follow. -/
theorem stripNewlines_append (s nl : String) (hs : ∀ c ∈ s.toList, (c == '\n' || c == '\r') = false)
    (hn : ∀ c ∈ nl.toList, (c == '\n' || c == '\r') = true) : stripNewlines (s ++ nl) = s := by
  unfold stripNewlines
  simp only [String.toList_append]
  rcases hl : s.toList with _ | ⟨x, l⟩
  · have : s = "" := by rw [← String.ofList_toList (s := s), hl]
    subst this
    rw [List.nil_append, dropWhile_all hn]
    rfl
  · have hx := hs x (by rw [hl]; simp)
    rw [List.cons_append, List.dropWhile_cons_of_neg (by simp [hx]), ← List.cons_append, ← hl, List.reverse_append,
      List.dropWhile_append_of_pos (by intro a ha; exact hn a (List.mem_reverse.mp ha)),
      dropWhile_none (by intro a ha; exact hs a (List.mem_reverse.mp ha)), List.reverse_reverse, String.ofList_toList]

/-- A token contains no newline. -/
theorem parts_no_newline {t : String} {s0 ek v ct tag : Bytes} {hdr : PyVal}
    (h : JweParts (utf8Encode t) s0 hdr ek v ct tag) : ∀ c ∈ t.toList, (c == '\n' || c == '\r') = false := by
  have hb : ∀ b : Bytes, (10 : UInt8) ∉ b64e b ∧ (13 : UInt8) ∉ b64e b := fun b =>
    ⟨fun hc => absurd ((C02_rfc4648 b).1 _ hc) (by decide), fun hc => absurd ((C02_rfc4648 b).1 _ hc) (by decide)⟩
  obtain ⟨hs, rfl, -⟩ := h.header
  intro c hc
  by_contra hn
  rw [Bool.not_eq_false] at hn
  have := newline_utf8 hn hc
  rw [h.text] at this
  simp [hb] at this

/-- The key object for a key file. -/
theorem rsaFileKeys_ok (E : Env) (r : RsaKey) (hn : 0 < r.n) (he : 0 < r.e) :
    ∃ k, rsaFileKeys E (.ok r) = .ok [k] ∧ HoldsRsa k r ∧ k.kty = .str "RSA" ∧ k.alg = .str "" ∧ k.use = .str "" ∧
      k.kid = .str "" := by
  obtain ⟨k, m, h1, h2, h3, h4, h5⟩ := rsaKeyNew_rsa E [] r "" "" rfl rfl rfl (.inl rfl) (.inl rfl)
  refine ⟨k, ?_, ⟨⟨m, h3⟩, h2⟩, ?_, ?_, ?_, ?_⟩
  · have hN : Holds m.n (some r.n.toNat) := by
      rw [h4.n]
      have := Holds.number (n := r.n.toNat) (by omega)
      rwa [Int.toNat_of_nonneg (by omega)] at this
    have hE : Holds m.e (some r.e.toNat) := by
      rw [h4.e]
      have := Holds.number (n := r.e.toNat) (by omega)
      rwa [Int.toNat_of_nonneg (by omega)] at this
    have hk : k.key.truthy = true := by rw [h2]; rfl
    have hd : k.serialize false = .ok (.dict (optSet (optSet k.common "n" (some r.n.toNat)) "e"
        (some r.e.toNat))) := by
      simp only [Key.serialize, h3, rsaSerialize, hk, Bool.true_eq_false, if_false,
        Bind.bind, Except.bind, serLong_holds hN, serLong_holds hE, Except.map, Bool.false_eq_true]
    simp only [rsaFileKeys, h1, hd, Bind.bind, Except.bind]
  · exact h5.labels.kty
  · exact h5.labels.alg
  · exact h5.labels.use
  · exact h5.labels.kid

/-- **C103.** What `jwenc.py` prints for an RSA key file (or certificate file), `jwdecrypt.py` with the private
key turns into the message again, given on the command line or in a file with newlines at the end. -/
theorem C103_rsa {E : Env} (hE : Standard E) (hZ : E.Z.Lawful) {rnd : JweRnd} (hr : RndLengths rnd)
    {alg enc : String} {p : RsaPad} {kl il : Nat} (hm : MgmtName alg (.rsa p)) (he : EncName enc kl il)
    (m : String) (hl : (utf8Encode m).length ≤ 16 * 2 ^ 32) {r r2 : RsaKey} {n e d : Int} {l : List Int}
    (hr1 : E.R.construct [n, e] = .ok r) (hr2 : E.R.construct (n :: e :: d :: l) = .ok r2)
    (hsize : (2 : Int) ^ 1039 ≤ n) :
    ∃ t, jwencMain E (.rsaFile (.ok r)) (some alg) (some enc) (some m) rnd = .ok (.printed [.str t]) ∧
      ∀ rnd2, (p = .pkcs1 → rnd2.sentinel 0 ≠ rnd.key kl) →
        jwdecryptMain E (.rsaFile (.ok r2)) none (some t) rnd2 = .ok (.printed [.bytes (utf8Encode m)]) ∧
        ∀ nl : String, (∀ c ∈ nl.toList, c = '\n' ∨ c = '\r') → ∀ other,
          jwdecryptMain E (.rsaFile (.ok r2)) (some (t ++ nl)) other rnd2 =
            .ok (.printed [.bytes (utf8Encode m)]) := by
  obtain ⟨hn1, he1, -⟩ := hE.rsaLaw.construct_ne n e r hr1
  obtain ⟨hc, hn2, he2⟩ := C97_construct hE hr2
  have hn0 : (0 : Int) < n := lt_of_lt_of_le (by positivity) hsize
  have he0 : 0 < e := by
    obtain ⟨f, hf⟩ := hE.rsa
    rw [hf] at hr1
    have hr1 : Real.construct [n, e] = .ok r := hr1
    rcases Real.construct_cases hr1 with ⟨n', e', hl, hpub, -⟩ | ⟨n', e', d', p', q', ⟨x, hl⟩, -, -⟩
    · simp only [List.cons.injEq, and_true] at hl
      simp only [Real.publicOk, Bool.and_eq_true, decide_eq_true_eq] at hpub
      omega
    · simp at hl
  obtain ⟨k, hk1, hk2, hk3, hk4, hk5, hk6⟩ := rsaFileKeys_ok E r (by rw [hn1]; exact hn0) (by rw [he1]; exact he0)
  obtain ⟨k', hk1', hk2', hk3', hk4', hk5', hk6'⟩ := rsaFileKeys_ok E r2 (by rw [hn2]; exact hn0)
    (by rw [he2]; exact he0)
  have hblank : (PyVal.str "").truthy = false := by decide
  have hp : EncPicked (.rsa p) alg .none k := ⟨.inr (.inl hk3), fun h => by simp [none_truthy] at h,
    fun _ h => by simp [hk5, hblank] at h, fun h => by simp [hk4, hblank] at h⟩
  have hp' : EncPicked (.rsa p) alg .none k' := ⟨.inr (.inl hk3'), fun h => by simp [none_truthy] at h,
    fun _ h => by simp [hk5', hblank] at h, fun h => by simp [hk4', hblank] at h⟩
  obtain ⟨o, t, h1, h2, h3⟩ := C101_rsa hE hZ hr hm he hk2 hk2' hr1 hr2 hsize hp hp' (by rw [hk6, hblank]) m hl
  have ho : o = { msg := .str m, dict := rsaKw alg enc false } := by
    rw [rsaKw_new] at h1
    exact (Except.ok.inj h1).symm
  have hnl : ∀ c ∈ t.toList, (c == '\n' || c == '\r') = false := by
    subst ho
    obtain ⟨g1, g2, g3, g4, g5⟩ := rsaKw_get alg enc false
    obtain ⟨l, wk, k0, hl1, -, hf, hk0⟩ := C90_rsa hE.aesLaw hr g1 hm (by
        constructor
        · intro n v hv
          obtain ⟨s, rfl⟩ := rsaKw_values alg enc false hv
          trivial
        · intro v hv; cases hv
        · intro x hx
          rw [List.mem_singleton] at hx
          subst hx
          exact distinct_of_falsy (by rw [hk6, hblank])
        · intro v hv; cases hv
        · intro v hv; cases hv) (by intro k v hv; cases hv) h2
    obtain rfl : k0 = k := by
      rcases hl1 with ⟨-, rfl⟩ | ⟨hx, -⟩
      · obtain ⟨pre, post, hp', -⟩ := hf
        rcases pre with _ | ⟨a, pre⟩
        · simp at hp'; exact hp'.1.symm
        · simp at hp'
      · cases hx
    obtain ⟨s0, hdr, ek, v, ct, tag, -, -, -, -, hJ, -⟩ := hk0 r hk2
    exact parts_no_newline hJ
  refine ⟨t, ?_, fun rnd2 hr2 => ⟨?_, fun nl hnl2 other => ?_⟩⟩
  · have hen : enc ∈ supportedEnc := by cases he <;> decide
    have han : alg ∈ supportedAlg := by cases hm <;> decide
    have hg1 : given (some alg) = some alg := by cases hm <;> rfl
    have hg2 : given (some enc) = some enc := by cases he <;> rfl
    simp only [jwencMain, KeyOpt.keys, hk1, Bind.bind, Except.bind, hg1, hg2, hen, han, not_true, if_false, optStr]
    have h1 : Jwe.new E (.str m) [("alg", .str alg), ("enc", .str enc)] = .ok o := h1
    simp only [h1, h2]
  · simp only [jwdecryptMain, KeyOpt.keys, hk1', Bind.bind, Except.bind, Option.getD, h3 rnd2 hr2]
  · have hs := stripNewlines_append t nl hnl (by
      intro c hc
      rcases hnl2 c hc with rfl | rfl <;> decide)
    simp only [jwdecryptMain, KeyOpt.keys, hk1', Bind.bind, Except.bind, hs, h3 rnd2 hr2]

/-- **C103.** `jwenc.py -X` never encrypts: the arguments of `load_x509_cert` are in the wrong order, so there
are no keys. -/
theorem C103_x509_url (E : Env) {alg enc : String} {m : KeyMgmt} {kl il : Nat} (ha : MgmtName alg m)
    (he : EncName enc kl il) (msg : Option String) (rnd : JweRnd) :
    jwencMain E .x509Url (some alg) (some enc) msg rnd = .error .noSuitableEncryptionKey := by
  cases ha <;> cases he <;> cases msg <;> rfl

/-! ### gen_symkey.py -/

/-- The key object the tool makes. -/
def genKey (secret : String) (kid : Option String) : Key :=
  keyCommon "oct" symArgs [("kid", optStr kid)] (.val (.bytes (utf8Encode secret))) (.sym (.str ""))

theorem symKeyNew_gen (secret : String) (kid : Option String) :
    symKeyNew [("kid", optStr kid)] (.str secret) = .ok (genKey secret kid) := by
  unfold symKeyNew
  have h : (kwGet [("kid", optStr kid)] "k" (.str "")).truthy = false := by
    cases kid <;> rfl
  simp only [show PyDict.has [("kid", optStr kid)] "self" = false from rfl, h, Bool.false_eq_true, if_false, and_false]
  rfl

/-- **C105.** What `gen_symkey.py` prints, given to `jwkutil.py -J`, is one key, with the secret and the label it
was given. -/
theorem C105_loads (E : Env) (secret : String) (hne : secret ≠ "") (kid : Option String) :
    ∃ s k, genSymkey secret kid = .ok (.printed [.str s]) ∧ PlainSecret k (utf8Encode secret) ∧
      k.kid = .str (kid.getD "") ∧
      ∀ a : UtilArgs, a.jwks = some s → a.rsa = none → a.hmacKey = none → a.jwk = none → a.jwksUrl = none →
        a.keys E = .ok [k] := by
  have hsec : utf8Encode secret ≠ [] := (secretKey_shared hne).2.2
  have hex : Exportable E (genKey secret (some (kid.getD ""))) :=
    .sym (kk := .str "") rfl rfl hsec ⟨rfl, ⟨_, rfl⟩, ⟨_, rfl⟩, ⟨_, rfl⟩⟩
  obtain ⟨s, ks, h1, h2, h3⟩ := C84_jwks E [genKey secret (some (kid.getD ""))] [] (by simpa using hex)
  obtain ⟨k, rfl, hk⟩ : ∃ k, ks = [k] ∧ Exported E (genKey secret (some (kid.getD ""))) k := by
    rcases h3 with _ | ⟨hk, _ | _⟩
    exact ⟨_, rfl, hk⟩
  have hser : (genKey secret kid).serialize true = (genKey secret (some (kid.getD ""))).serialize true := by
    cases kid <;> rfl
  obtain ⟨d, -, g1, g2, -⟩ := export_one E _ hex
  have g1 : (genKey secret (some (kid.getD ""))).serialize true = .ok (.dict d) := g1
  have hdump : jsonDumps (.dict [("keys", .list [.dict d])]) = .ok s := by
    rw [← h1]
    simp only [Keys.dumpJwks, List.mapM_cons, List.mapM_nil, Bind.bind, Except.bind, Pure.pure, Except.pure]
    rw [show (genKey secret (some (kid.getD ""))).serializeDflt = .ok (.dict d) from g1]
    simp only [b2sConv, b2sConvD_text g2.text, Except.map]
  refine ⟨s, k, ?_, ?_, ?_, ?_⟩
  · simp only [genSymkey, symKeyNew_gen, hser, g1, hdump, Bind.bind, Except.bind]
  · cases hk with
    | rsa ha => cases ha
    | ec ha => cases ha
    | sym ha hka hb hkb hl =>
      cases hka
      exact ⟨by rw [hl.kty]; rfl, ⟨_, by rw [hl.kid]; rfl⟩, by
        rw [hl.alg]; exact (by decide : (PyVal.str "").truthy = false), by
        rw [hl.use]; exact (by decide : (PyVal.str "").truthy = false),
        ⟨_, hb⟩, hkb⟩
  · cases hk with
    | rsa ha => cases ha
    | ec ha => cases ha
    | sym ha hka hb hkb hl => rw [hl.kid]; rfl
  · intro a a1 a2 a3 a4 a5
    have h2 : Keys.loadJwks E [] s = (.ok (), [k]) := h2
    simp only [UtilArgs.keys, UtilArgs.rsaKeys, UtilArgs.hmacKeys, UtilArgs.jwkKeys, UtilArgs.jwksKeys,
      UtilArgs.urlKeys, a1, a2, a3, a4, a5, given, loadedKeys, h2, Bind.bind, Except.bind, List.nil_append,
      List.append_nil]

/-- **C105.** Generate a key, sign with it, verify with it. -/
theorem C105_roundtrip {E : Env} (hE : Standard E) (hjb : JsonBytesLawful E.jsonBytes) (secret : String)
    (hne : secret ≠ "") (kid : Option String) (name : String) (h : HashAlg) (hsup : SupportedAlg name (.hs h))
    (m : String) (ty : Option String) (rnd : Nat) (jrnd : JweRnd) :
    ∃ s t v, genSymkey secret kid = .ok (.printed [.str s]) ∧
      utilMain E { sign := true, jwks := some s, alg := some name, msgtype := ty, message := some m } rnd jrnd =
        .ok (.printed [.str t]) ∧
      (∀ rnd' jrnd', utilMain E { verify := true, jwks := some s, message := some t } rnd' jrnd' =
        .ok (.printed [v])) ∧ ReadBack m v := by
  obtain ⟨s, k, h1, h2, -, h4⟩ := C105_loads E secret hne kid
  obtain ⟨t, v, h5⟩ := util_roundtrip hE hjb k _ h2 name h hsup m ty rnd jrnd
    { sign := true, jwks := some s, alg := some name, msgtype := ty, message := some m }
    { verify := true, jwks := some s } (h4 _ rfl rfl rfl rfl rfl) (fun _ => h4 _ rfl rfl rfl rfl rfl)
    rfl rfl rfl rfl rfl rfl rfl rfl rfl
  exact ⟨s, t, v, h1, h5⟩

/-! ### Concrete runs, with the standard algorithms -/

/-- `jwkutil.py -s -k 47ada4 hello` prints an unsigned token, which `-v -k 47ada4` refuses. -/
example (rnd rnd' : Nat) (jrnd jrnd' : JweRnd) :
    ∃ t, utilMain stdEnv { sign := true, hmacKey := some "47ada4", message := some "hello" } rnd jrnd =
        .ok (.printed [.str t]) ∧
      utilMain stdEnv { verify := true, hmacKey := some "47ada4", message := some t } rnd' jrnd' =
        .error .signerAlgError := by
  have hk := fun (a : UtilArgs) h => keys_secret stdEnv a "47ada4" h (by decide)
  obtain ⟨t, s0, s1, p, hdr, h1, h2, h3, -⟩ := C102_unsigned stdEnv
    { sign := true, hmacKey := some "47ada4", message := some "hello" } _ (hk _ rfl rfl rfl rfl rfl) (by simp) rfl rfl
    rfl rnd jrnd
  exact ⟨t, h1, C102_unsigned_refused stdEnv _ _ (hk _ rfl rfl rfl rfl rfl) (by simp) rfl rfl rfl rfl t rfl _ _ _ _ _
    h2 h3 rnd' jrnd'⟩

example (m : String) (rnd : Nat) (jrnd : JweRnd) :
    ∃ t v, utilMain stdEnv { sign := true, hmacKey := some "47ada4", alg := some "HS384", msgtype := some "JWT", message := some m }
        rnd jrnd = .ok (.printed [.str t]) ∧
      (∀ rnd' jrnd', utilMain stdEnv { verify := true, hmacKey := some "47ada4", message := some t } rnd' jrnd' =
        .ok (.printed [v])) ∧ ReadBack m v :=
  C102_hmac stdEnv_standard (by intro b e h; cases h; rfl) "47ada4" (by decide) "HS384" .sha384 .HS384 m _ rnd jrnd

example (m : String) (hm : ∀ t, utilSign stdEnv (.str m) [secretKey "47ada4"] (.str "HS256") .none 0 = .ok t →
      (utf8Encode t).length ≤ 16 * 2 ^ 32) :
    ∃ t c, utilSign stdEnv (.str m) [secretKey "47ada4"] (.str "HS256") .none 0 = .ok t ∧
      utilMain stdEnv { sign := true, encrypt := true, hmacKey := some "47ada4", alg := some "HS256", encalg := some "A128KW", encenc := some "A256GCM", message := some m }
        0 exRnd = .ok (.printed [.str c]) ∧
      (∀ rnd2, (({} : Jwe).decrypt stdEnv rnd2 (utf8Encode c) [secretKey "47ada4"]).1 = .ok (utf8Encode t)) ∧
      ∀ v rnd2 jrnd2, utilMain stdEnv { decrypt := true, verify := v, hmacKey := some "47ada4", message := some c }
        rnd2 jrnd2 = .error .valueError :=
  C102_nested_lost stdEnv_standard "47ada4" (by decide) "HS256" .sha256 .HS256 m .a128 .g256 none 0 exRnd exRnd_lengths
    hm

/-- `jwenc.py -r public.pem`, then `jwdecrypt.py -r private.pem`. -/
example (m : String) (hl : (utf8Encode m).length ≤ 16 * 2 ^ 32) :
    ∃ t, jwencMain stdEnv (.rsaFile (.ok ⟨(bigP * bigQ : Nat), 65537, none⟩)) (some "RSA-OAEP") (some "A128CBC-HS256")
        (some m) exRnd = .ok (.printed [.str t]) ∧
      ∀ rnd2, jwdecryptMain stdEnv (.rsaFile (.ok bigRsa)) (some (t ++ "\r\n")) none rnd2 =
        .ok (.printed [.bytes (utf8Encode m)]) := by
  obtain ⟨t, h1, h2⟩ := C103_rsa (E := stdEnv) stdEnv_standard toyZlib_lawful exRnd_lengths .oaep .c128 m hl bigPublic_construct
    bigRsa_construct bigRsa_size
  have hnl : ∀ c ∈ "\r\n".toList, c = '\n' ∨ c = '\r' := by decide
  exact ⟨t, h1, fun rnd2 => (h2 rnd2 (by intro h; cases h)).2 "\r\n" hnl none⟩

example (m : Option String) (rnd : JweRnd) :
    jwencMain stdEnv .x509Url (some "RSA-OAEP") (some "A128GCM") m rnd = .error .noSuitableEncryptionKey :=
  C103_x509_url stdEnv .oaep .g128 m rnd

example (m : String) (rnd : Nat) (jrnd : JweRnd) :
    ∃ s t v, genSymkey "Q9ZK" none = .ok (.printed [.str s]) ∧
      utilMain stdEnv { sign := true, jwks := some s, alg := some "HS512", message := some m } rnd jrnd =
        .ok (.printed [.str t]) ∧
      (∀ rnd' jrnd', utilMain stdEnv { verify := true, jwks := some s, message := some t } rnd' jrnd' =
        .ok (.printed [v])) ∧ ReadBack m v :=
  C105_roundtrip stdEnv_standard (by intro b e h; cases h; rfl) "Q9ZK" (by decide) none "HS512" .sha512 .HS512 m none
    rnd jrnd

end Verif
