import Verif.Props.PublishEnc
/-
C118: signature verification and encryption use nothing but the public half of a key.
-/

namespace Verif
open Spec

/-- Two keys with the same labels and the same public half: RSA objects with the same modulus and exponent,
EC keys with the same coordinates, the same secret. -/
inductive Spec.SameHalf : Key → Key → Prop
  | same {a} : SameHalf a a
  | rsa {a b m m' r r'} (ha : a.mat = .rsa m) (hb : b.mat = .rsa m') (hka : a.key = .rsa r) (hkb : b.key = .rsa r')
      (hr : r.SamePublic r') (hl : SameLabels b a) : SameHalf a b
  | ec {a b crv crv' x y d d' c c'} (ha : a.mat = .ec crv x y d c) (hb : b.mat = .ec crv' x y d' c')
      (hl : SameLabels b a) : SameHalf a b
  | sym {a b kk kk'} (ha : a.mat = .sym kk) (hb : b.mat = .sym kk') (hk : b.key = a.key)
      (ht : a.key.truthy = true) (hl : SameLabels b a) : SameHalf a b

theorem Spec.SameHalf.labels {a b : Key} (h : SameHalf a b) : SameLabels b a := by
  cases h with
  | same => exact ⟨rfl, rfl, rfl, rfl⟩
  | rsa _ _ _ _ _ hl => exact hl
  | ec _ _ hl => exact hl
  | sym _ _ _ _ hl => exact hl

/-- The same exception, or values of which `R` holds. -/
def Spec.SameResult {α β : Type} (R : α → β → Prop) : PyM α → PyM β → Prop
  | .ok a, .ok b => R a b
  | .error e, .error e' => e = e'
  | _, _ => False

theorem SameResult.refl {α : Type} (x : PyM α) : SameResult (· = ·) x x := by cases x <;> rfl

theorem SameResult.eq {α : Type} {x y : PyM α} (h : SameResult (· = ·) x y) : x = y := by
  cases x <;> cases y <;> simp_all [SameResult]

theorem SameResult.bind {α β γ δ : Type} {R : α → β → Prop} {S : γ → δ → Prop} {x : PyM α} {y : PyM β}
    {f : α → PyM γ} {g : β → PyM δ} (h : SameResult R x y) (hfg : ∀ a b, R a b → SameResult S (f a) (g b)) :
    SameResult S (x.bind f) (y.bind g) := by
  cases x <;> cases y <;> simp_all [SameResult, Except.bind]

/-! ### One key -/

theorem Real.half_verify {r r' : RsaKey} (h : r.SamePublic r') (a : HashAlg) (m s : Bytes) :
    verify15 a r' m s = verify15 a r m s ∧ verifyPss a r' m s = verifyPss a r m s := by
  obtain ⟨n, e, p⟩ := r
  obtain ⟨n', e', p'⟩ := r'
  obtain ⟨h1, h2⟩ := h
  simp only at h1 h2
  subst h1 h2
  exact ⟨rfl, rfl⟩

theorem Real.half_encrypt {r r' : RsaKey} (h : r.SamePublic r') (a : HashAlg) (rnd : ℕ) (m : Bytes) :
    enc15 r' rnd m = enc15 r rnd m ∧ encOaep a r' rnd m = encOaep a r rnd m := by
  obtain ⟨n, e, p⟩ := r
  obtain ⟨n', e', p'⟩ := r'
  obtain ⟨h1, h2⟩ := h
  simp only at h1 h2
  subst h1 h2
  exact ⟨rfl, rfl⟩

theorem half_verify {E : Env} (hE : Standard E) {k k' : Key} (h : SameHalf k k') (a : SigAlg) (msg sig : Bytes) :
    (k'.getKey false).bind (a.verify E msg sig) = (k.getKey false).bind (a.verify E msg sig) := by
  obtain ⟨f, hf⟩ := hE.rsa
  cases h with
  | same => rfl
  | rsa ha hb hka hkb hr hl =>
    simp only [Key.getKey, ha, hb, hka, hkb, Except.bind]
    cases a with
    | hs h => rfl
    | rs h => simp only [SigAlg.verify, rsaKeyArg, Bind.bind, Except.bind, hf, Real.rsa, (Real.half_verify hr h msg sig).1]
    | ps h => simp only [SigAlg.verify, rsaKeyArg, Bind.bind, Except.bind, hf, Real.rsa, (Real.half_verify hr h msg sig).2]
    | es h => rfl
  | ec ha hb hl => simp only [Key.getKey, ha, hb, Bool.false_eq_true, if_false]
  | sym ha hb hk ht hl => simp only [Key.getKey, ha, hb, hk]

/-! ### Lists of keys -/

/-- Elements of an iterable of keys. -/
def JHalf (R : Key → Key → Prop) : JKey → JKey → Prop
  | .key a, .key b => R a b
  | a, b => a = b

theorem JHalf.refl {R : Key → Key → Prop} (hr : ∀ a, R a a) (a : JKey) : JHalf R a a := by
  cases a
  · exact hr _
  · rfl

theorem jhalf_map {R : Key → Key → Prop} {l l' : List Key} (h : List.Forall₂ R l l') :
    List.Forall₂ (JHalf R) (l.map JKey.key) (l'.map JKey.key) := by
  induction h with
  | nil => exact .nil
  | cons h1 _ ih => exact .cons h1 ih

theorem forall₂_refl' {α : Type} {R : α → α → Prop} (h : ∀ a, R a a) (l : List α) : List.Forall₂ R l l := by
  induction l with
  | nil => exact .nil
  | cons a l ih => exact .cons (h a) ih

theorem half_keysOfType {R : Key → Key → Prop} (hR : ∀ a b, R a b → SameHalf a b) (kt : String) {l l' : List JKey}
    (h : List.Forall₂ (JHalf R) l l') :
    SameResult (List.Forall₂ fun a b => R a b ∧ ktyMatches kt a.kty = true) (keysOfType kt l)
      (keysOfType kt l') := by
  induction h with
  | nil => exact .nil
  | @cons a b _ _ h1 h2 ih =>
    cases a with
    | other v =>
      cases b with
      | other w => cases h1; rfl
      | key k => cases h1
    | key k =>
      cases b with
      | other w => cases h1
      | key k' =>
        change R k k' at h1
        simp only [keysOfType]
        refine SameResult.bind ih fun a b hab => ?_
        rw [(hR _ _ h1).labels.kty]
        split
        · rename_i hm
          exact .cons ⟨h1, hm⟩ hab
        · exact hab

theorem half_filter {R : Key → Key → Prop} (hR : ∀ a b, R a b → SameHalf a b) (kid : PyVal) (use : String)
    (alg : PyVal) {l l' : List Key} (h : List.Forall₂ R l l') :
    List.Forall₂ R (l.filter (keyPasses kid use alg)) (l'.filter (keyPasses kid use alg)) := by
  induction h with
  | nil => exact .nil
  | @cons a b _ _ h1 h2 ih =>
    have he : keyPasses kid use alg b = keyPasses kid use alg a := by
      simp only [keyPasses, (hR _ _ h1).labels.kid, (hR _ _ h1).labels.use, (hR _ _ h1).labels.alg]
    rw [List.filter_cons, List.filter_cons, he]
    split
    · exact .cons h1 ih
    · exact ih

theorem half_pickKeys {R : Key → Key → Prop} (hR : ∀ a b, R a b → SameHalf a b)
    (a2k : PyVal → PyM (Option String)) (o : Jwx) (use : String) (alg : PyVal) {l l' : List JKey}
    (h : List.Forall₂ (JHalf R) l l') :
    SameResult (List.Forall₂ fun a b => R a b ∧
        ∃ al kt, (alg.truthy = false → PyDict.get? o.dict "alg" = some al) ∧ a2k al = .ok (some kt) ∧
          ktyMatches kt a.kty = true) (o.pickKeys a2k l use alg) (o.pickKeys a2k l' use alg) := by
  unfold Jwx.pickKeys
  cases hal : (if alg.truthy then .ok alg else PyVal.getItem (.dict o.dict) "alg" : PyM PyVal) with
  | error e => rfl
  | ok al =>
  have hal' : alg.truthy = false → PyDict.get? o.dict "alg" = some al := by
    intro ht
    rw [if_neg (by simp [ht])] at hal
    cases hg : PyDict.get? o.dict "alg" <;> simp_all [PyVal.getItem]
  simp only [Bind.bind, Except.bind]
  split
  · exact .nil
  · cases hkt : a2k al with
    | error e => rfl
    | ok kt =>
    cases kt with
    | none => exact .nil
    | some kt =>
      refine SameResult.bind (half_keysOfType hR kt h) fun ks ks' hks => ?_
      refine SameResult.bind (SameResult.refl _) fun kid kid' hkid => ?_
      subst hkid
      exact half_filter (fun a b h => hR _ _ h.1) _ _ _ (hks.imp fun a b h => ⟨h.1, al, kt, hal', hkt, h.2⟩)

theorem half_loop {E : Env} (hE : Standard E) (a : SigAlg) (msg sig : Bytes) {l l' : List Key}
    (h : List.Forall₂ SameHalf l l') :
    SameResult SameHalf (verifyLoop E a msg sig l) (verifyLoop E a msg sig l') := by
  induction h with
  | nil => rfl
  | cons h1 h2 ih =>
    simp only [verifyLoop]
    rw [half_verify hE h1]
    split
    · exact h1
    · split
      · exact ih
      · rfl

theorem forall₂_isEmpty {α β : Type} {R : α → β → Prop} {l : List α} {l' : List β} (h : List.Forall₂ R l l') :
    l'.isEmpty = l.isEmpty := by cases h <;> rfl

/-- `keys or self._get_keys()`: the given keys, or those of the object. -/
theorem half_source {R : Key → Key → Prop} (hr : ∀ a, R a a) (E : Env) (o : Jwx) {l l' : List Key}
    (h : List.Forall₂ R l l') : SameResult (List.Forall₂ (JHalf R)) (o.keySource E l) (o.keySource E l') := by
  unfold Jwx.keySource
  rw [forall₂_isEmpty h]
  split
  · cases o.getKeys E with
    | error e => rfl
    | ok l => exact forall₂_refl' (JHalf.refl hr) l
  · exact jhalf_map h

/-! ### Verification -/

/-- Two objects that differ in nothing but the key reported by the last verification. -/
def Spec.SameObject (a b : Jwx) : Prop := a.msg = b.msg ∧ a.dict = b.dict ∧ a.jwk = b.jwk ∧ a.jwt = b.jwt

theorem Spec.SameObject.eq {a b : Jwx} (h : SameObject a b) : b = { a with key := b.key } := by
  obtain ⟨h1, h2, h3, h4⟩ := h
  cases a
  cases b
  simp_all

/-- The message is the same and the key, if any, has the same public half. -/
def Spec.SameVerified (p q : PyVal × Option Key) : Prop :=
  p.1 = q.1 ∧ (p.2 = q.2 ∨ ∃ k k', p.2 = some k ∧ q.2 = some k' ∧ SameHalf k k')

/-- The part of `verify_compact_verbose` that uses keys. -/
def Jwx.checked (E : Env) (o : Jwx) (jwt : Jwt) (alg : PyVal) (keys : List Key) : PyM (Key × PyVal) := do
  let src ← o.keySource E keys
  let ks ← o.pickKeys alg2keytype src "" (.str "")
  if ks.isEmpty then .error .noSuitableSigningKeys
  else
    match signerOf alg with
    | none => .error .keyError
    | some none => .error .attributeError
    | some (some a) =>
      let inp ← jwt.signInput
      let sig ← (match jwt.part[2]? with | some s => .ok s | none => .error .indexError)
      let k ← verifyLoop E a inp sig ks
      let m ← jwt.payload E.jsonBytes
      .ok (k, m)

/-- **C118.** `verify_compact_verbose` with keys that have the same public halves. -/
theorem C118_verbose {E : Env} (hE : Standard E) {o o' : Jwx} (ho : SameObject o o') (jws : Bytes) {l l' : List Key}
    (h : List.Forall₂ SameHalf l l') (an : Bool) (sigalg : PyVal) :
    SameResult SameVerified (o.verifyVerbose E jws l an sigalg).1 (o'.verifyVerbose E jws l' an sigalg).1 ∧
      SameObject (o.verifyVerbose E jws l an sigalg).2 (o'.verifyVerbose E jws l' an sigalg).2 := by
  rw [ho.eq]
  generalize o'.key = kk
  unfold Jwx.verifyVerbose
  split
  · exact ⟨rfl, rfl, rfl, rfl, rfl⟩
  rename_i jwt hj
  split
  · exact ⟨rfl, rfl, rfl, rfl, rfl⟩
  split
  · exact ⟨rfl, rfl, rfl, rfl, rfl⟩
  · split
    · split
      · exact ⟨⟨rfl, .inl rfl⟩, rfl, rfl, rfl, rfl⟩
      · exact ⟨rfl, rfl, rfl, rfl, rfl⟩
    · exact ⟨rfl, rfl, rfl, rfl, rfl⟩
  · rename_i alg ha
    by_cases hc : ({ o with jwt := some jwt } : Jwx).algConflict alg = true
    · rw [if_pos hc, if_pos (show ({ o with jwt := some jwt, key := kk } : Jwx).algConflict alg = true from hc)]
      exact ⟨rfl, rfl, rfl, rfl, rfl⟩
    rw [if_neg hc, if_neg (show ¬ ({ o with jwt := some jwt, key := kk } : Jwx).algConflict alg = true from hc)]
    by_cases hs : (sigalg.truthy && !sigalg.pyEq alg) = true
    · rw [if_pos hs, if_pos hs]
      refine ⟨?_, rfl, rfl, rfl, rfl⟩
      split <;> rfl
    rw [if_neg hs, if_neg hs]
    simp only
    have key : SameResult (fun p q : Key × PyVal => SameHalf p.1 q.1 ∧ p.2 = q.2)
        (Jwx.checked E { o with jwt := some jwt, dict := PyDict.set o.dict "alg" alg } jwt alg l)
        (Jwx.checked E { o with jwt := some jwt, key := kk, dict := PyDict.set o.dict "alg" alg } jwt alg l') := by
      unfold Jwx.checked
      refine SameResult.bind (half_source (fun _ => .same) E _ h) fun src src' hsrc => ?_
      refine SameResult.bind (half_pickKeys (fun _ _ h => h) _ _ _ _ hsrc) fun ks ks' hks => ?_
      rw [forall₂_isEmpty hks]
      split
      · rfl
      split
      · rfl
      · rfl
      refine SameResult.bind (SameResult.refl _) fun inp inp' hinp => ?_
      subst hinp
      refine SameResult.bind (SameResult.refl _) fun sg sg' hsg => ?_
      subst hsg
      refine SameResult.bind (half_loop hE _ _ _ (hks.imp fun a b h => h.1)) fun k k' hk => ?_
      refine SameResult.bind (SameResult.refl _) fun m m' hm => ?_
      exact ⟨hk, hm⟩
    unfold Jwx.checked at key
    generalize (Jwx.keySource E ({ o with jwt := some jwt, dict := PyDict.set o.dict "alg" alg }) l >>= _) = r at key ⊢
    generalize (Jwx.keySource E ({ o with jwt := some jwt, key := kk, dict := PyDict.set o.dict "alg" alg }) l' >>= _) = r'
      at key ⊢
    cases r with
    | error e =>
      cases r' with
      | error e' => cases key; exact ⟨rfl, rfl, rfl, rfl, rfl⟩
      | ok p' => cases key
    | ok p =>
      cases r' with
      | error e' => cases key
      | ok p' =>
        obtain ⟨k, m⟩ := p
        obtain ⟨k', m'⟩ := p'
        obtain ⟨h1, h2⟩ := key
        simp only at h1 h2
        subst h2
        exact ⟨⟨rfl, .inr ⟨k, k', rfl, rfl, h1⟩⟩, rfl, rfl, rfl, rfl⟩

theorem compact_half {E : Env} (hE : Standard E) {o o' : Jwx} (ho : SameObject o o') (jws : Bytes) {l l' : List Key}
    (h : List.Forall₂ SameHalf l l') (an : Bool) (sigalg : PyVal) :
    (o'.verifyCompact E jws l' an sigalg).1 = (o.verifyCompact E jws l an sigalg).1 ∧
      SameObject (o.verifyCompact E jws l an sigalg).2 (o'.verifyCompact E jws l' an sigalg).2 := by
  obtain ⟨h1, h2⟩ := C118_verbose hE ho jws h an sigalg
  refine ⟨?_, h2⟩
  unfold Jwx.verifyCompact
  generalize o.verifyVerbose E jws l an sigalg = r at h1 ⊢
  generalize o'.verifyVerbose E jws l' an sigalg = r' at h1 ⊢
  obtain ⟨r, _⟩ := r
  obtain ⟨r', _⟩ := r'
  cases r <;> cases r' <;> simp only [SameResult] at h1
  · rw [h1]
  · exact (congrArg Except.ok h1.1).symm

/-- **C118.** `verify_compact` gives the same answer with keys that have the same public halves. -/
theorem C118_compact {E : Env} (hE : Standard E) (o : Jwx) (jws : Bytes) {l l' : List Key}
    (h : List.Forall₂ SameHalf l l') (an : Bool) (sigalg : PyVal) :
    (o.verifyCompact E jws l' an sigalg).1 = (o.verifyCompact E jws l an sigalg).1 :=
  (compact_half hE ⟨rfl, rfl, rfl, rfl⟩ jws h an sigalg).1

theorem reinit_half (E : Env) {o o' : Jwx} (kw : PyDict) (ho : SameObject o o') :
    (o'.reinit E kw).1 = (o.reinit E kw).1 ∧ SameObject (o.reinit E kw).2 (o'.reinit E kw).2 := by
  unfold Jwx.reinit
  split
  · exact ⟨rfl, ho⟩
  unfold Jwx.initBody
  simp only
  split
  · exact ⟨rfl, rfl, rfl, rfl, rfl⟩
  split
  · exact ⟨rfl, rfl, rfl, rfl, rfl⟩
  split
  · exact ⟨rfl, rfl, rfl, rfl, rfl⟩
  · exact ⟨rfl, rfl, rfl, rfl, rfl⟩

theorem entry_half {E : Env} (hE : Standard E) {o o' : Jwx} (ho : SameObject o o') (payload sign : PyVal)
    {l l' : List Key} (h : List.Forall₂ SameHalf l l') (an : Bool) (sigalg : PyVal) :
    (o'.verifyEntry E payload sign l' an sigalg).1 = (o.verifyEntry E payload sign l an sigalg).1 ∧
      SameObject (o.verifyEntry E payload sign l an sigalg).2 (o'.verifyEntry E payload sign l' an sigalg).2 := by
  unfold Jwx.verifyEntry
  split
  · exact ⟨rfl, ho⟩
  rename_i token hdrs _
  obtain ⟨h1, h2⟩ := reinit_half E hdrs ho
  generalize o.reinit E hdrs = r at h1 h2 ⊢
  generalize o'.reinit E hdrs = r' at h1 h2 ⊢
  obtain ⟨r, q⟩ := r
  obtain ⟨r', q'⟩ := r'
  simp only at h1 h2
  subst h1
  cases r' with
  | error e => exact ⟨rfl, h2⟩
  | ok u => exact compact_half hE h2 token h an sigalg

theorem entries_half {E : Env} (hE : Standard E) (payload : PyVal) {l l' : List Key} (h : List.Forall₂ SameHalf l l')
    (an : Bool) (sigalg : PyVal) (es : List PyVal) : ∀ {o o' : Jwx} (_ : SameObject o o') (claim : PyVal),
    (o'.verifyEntries E payload l' an sigalg claim es).1 = (o.verifyEntries E payload l an sigalg claim es).1 := by
  induction es with
  | nil => intros; rfl
  | cons s es ih =>
    intro o o' ho claim
    obtain ⟨h1, h2⟩ := entry_half hE ho payload s h an sigalg
    simp only [Jwx.verifyEntries]
    generalize o.verifyEntry E payload s l an sigalg = r at h1 h2 ⊢
    generalize o'.verifyEntry E payload s l' an sigalg = r' at h1 h2 ⊢
    obtain ⟨r, q⟩ := r
    obtain ⟨r', q'⟩ := r'
    simp only at h1 h2
    subst h1
    cases r' with
    | error e => rfl
    | ok m =>
      simp only
      split
      · exact ih h2 m
      split
      · exact ih h2 claim
      · rfl

/-- **C118.** So does `verify_json`. -/
theorem C118_json {E : Env} (hE : Standard E) (o : Jwx) (jws : String) {l l' : List Key}
    (h : List.Forall₂ SameHalf l l') (an : Bool) (sigalg : PyVal) :
    (o.verifyJson E jws l' an sigalg).1 = (o.verifyJson E jws l an sigalg).1 := by
  unfold Jwx.verifyJson
  split
  · rfl
  · exact entries_half hE _ h an sigalg _ ⟨rfl, rfl, rfl, rfl⟩ _

/-! ### Encryption -/

theorem half_encryptWith {E : Env} (hE : Standard E) (o : Jwe) (rnd : JweRnd) {alg : PyVal} (hk : jweKind alg ≠ .ok .ec)
    {k k' : Key} (h : SameHalf k k') (hec : k = k' ∨ ¬ IsEc k) (cek iv : Bytes) (kid : Option PyVal) :
    o.encryptWith E rnd alg k' cek iv kid = o.encryptWith E rnd alg k cek iv kid := by
  obtain ⟨f, hf⟩ := hE.rsa
  rcases hec with rfl | hec
  · rfl
  have hset : ∀ q : Jwe, q.setKid k' = q.setKid k := fun q => by simp only [Jwe.setKid, h.labels.kid]
  unfold Jwe.encryptWith
  cases hj : jweKind alg with
  | error e => rfl
  | ok kind =>
  simp only [Bind.bind, Except.bind, hset]
  cases h with
  | same => rfl
  | ec ha => exact absurd ⟨_, _, _, _, _, ha⟩ hec
  | sym ha hb hk' ht hl =>
    have he : k'.encryptionKey E alg true = k.encryptionKey E alg true := by
      simp only [Key.encryptionKey, ha, hb, hk', symEncryptionKey, ht, if_true]
    cases kind with
    | rsa => simp only [he]
    | sym => simp only [he]
    | ec => exact absurd hj hk
  | rsa ha hb hka hkb hr hl =>
    rename_i m m' r r'
    have e1 : k.encryptionKey E alg true = .ok (.obj (.rsa r)) := by
      simp only [Key.encryptionKey, ha, hka, KObj.truthy, if_true]
    have e2 : k'.encryptionKey E alg true = .ok (.obj (.rsa r')) := by
      simp only [Key.encryptionKey, hb, hkb, KObj.truthy, if_true]
    have hre : ∀ n msg pad, rsaEncrypterEncrypt E false n msg (.obj (.rsa r')) pad =
        rsaEncrypterEncrypt E false n msg (.obj (.rsa r)) pad := by
      intro n msg pad
      simp only [rsaEncrypterEncrypt, rsaKeyArg, Bind.bind, Except.bind, hf, Real.rsa]
      cases pad
      · exact (Real.half_encrypt hr .sha1 n _).1
      · exact (Real.half_encrypt hr .sha1 n _).2
      · exact (Real.half_encrypt hr .sha256 n _).2
    cases kind with
    | rsa => simp only [e1, e2, Jwe.rsaEncrypt, hre]
    | sym => simp only [e1, e2, Jwe.symEncrypt, symKek]
    | ec => exact absurd hj hk

/-- The token `JWE.encrypt` makes and the content key it stores. -/
def Jwe.made (E : Env) (o : Jwe) (rnd : JweRnd) (keys : List Key) (cek iv : Bytes) (kid : Option PyVal) :
    PyM (String × PyVal) := do
  let alg ← PyVal.getItem (.dict o.dict) "alg"
  let src ← o.keySource E keys
  let ks ← o.pickKeys jweAlg2keytype src "enc" (.str "")
  match ks with
  | [] => .error .noSuitableEncryptionKey
  | k :: _ => o.encryptWith E rnd alg k cek iv kid

/-- **C118.** Key wrapping and RSA encryption make the same token out of keys with the same public halves. -/
theorem C118_encrypt {E : Env} (hE : Standard E) (o : Jwe) (rnd : JweRnd) {alg : String} {m : KeyMgmt}
    (halg : PyDict.get? o.dict "alg" = some (.str alg)) (hm : MgmtName alg m) (hma : ¬ IsAgreement m) {l l' : List Key}
    (h : List.Forall₂ SameHalf l l') (hec : ∀ k ∈ l, IsEc k → k.kty = .str "EC") (cek iv : Bytes) (kid : Option PyVal) :
    (o.encrypt E rnd l' cek iv kid).1 = (o.encrypt E rnd l cek iv kid).1 := by
  have hkind : jweKind (.str alg) ≠ .ok .ec := by
    cases hm <;> first | decide | exact absurd trivial hma
  have hkt : ∃ kt, jweAlg2keytype (.str alg) = .ok (some kt) ∧ ktyMatches kt (.str "EC") = false := by
    cases hm <;> first | exact ⟨_, rfl, by decide⟩ | exact absurd trivial hma
  obtain ⟨kt, hkt, hkt2⟩ := hkt
  have hR : List.Forall₂ (fun a b => SameHalf a b ∧ (a = b ∨ (IsEc a → a.kty = .str "EC"))) l l' := by
    clear halg hkt hkt2
    induction h with
    | nil => exact .nil
    | cons h1 _ ih => exact .cons ⟨h1, .inr (hec _ (by simp))⟩ (ih fun k hk => hec k (by simp [hk]))
  have key : SameResult (· = ·) (o.made E rnd l cek iv kid) (o.made E rnd l' cek iv kid) := by
    unfold Jwe.made
    have hg : PyVal.getItem (.dict o.dict) "alg" = .ok (.str alg) := by simp [PyVal.getItem, halg]
    rw [hg]
    refine SameResult.bind (R := fun a b => a = .str alg ∧ b = .str alg) ⟨rfl, rfl⟩ fun a b hab => ?_
    obtain ⟨rfl, rfl⟩ := hab
    refine SameResult.bind (half_source (fun _ => ⟨.same, .inl rfl⟩) E _ hR) fun src src' hsrc => ?_
    refine SameResult.bind (half_pickKeys (fun _ _ h => h.1) _ _ _ _ hsrc) fun ks ks' hks => ?_
    cases hks with
    | nil => rfl
    | @cons a b _ _ hab _ =>
      obtain ⟨⟨h1, h2⟩, al, kt', h3, h4, h5⟩ := hab
      have h3' := h3 rfl
      rw [halg] at h3'
      cases h3'
      rw [hkt] at h4
      cases h4
      simp only
      rw [half_encryptWith hE o rnd hkind h1 (h2.imp_right fun h hi => by rw [h hi, hkt2] at h5; cases h5)]
      exact SameResult.refl _
  have he : ∀ ks, (o.encrypt E rnd ks cek iv kid).1 = (o.made E rnd ks cek iv kid).map Prod.fst := by
    intro ks
    unfold Jwe.encrypt Jwe.made
    generalize (PyVal.getItem (.dict o.dict) "alg" >>= _) = r
    cases r <;> rfl
  rw [he, he, SameResult.eq key]

/-! ### The published set -/

/-- The library object of an RSA key has the numbers of its members. -/
def Spec.RsaMatches (k : Key) : Prop :=
  ∀ m N, k.mat = .rsa m → RsaHolds m N → ∃ r, k.key = .rsa r ∧ r.n = N.n ∧ r.e = N.e

theorem exported_half {E : Env} (hE : Standard E) {k k' : Key} (h : Exported E k k') (hw : RsaMatches k)
    (hs : ∀ kk, k.mat = .sym kk → k.key.truthy = true) : SameHalf k k' := by
  cases h with
  | rsa ha hN hb hm hr hk hl =>
    obtain ⟨r, h1, h2, h3⟩ := hw _ _ ha hN
    obtain ⟨g1, g2, -⟩ := hE.rsaLaw.construct_ne _ _ _ hr
    exact .rsa ha hb h1 hk ⟨by rw [g1, h2], by rw [g2, h3]⟩ hl
  | ec ha hx hy hb hl =>
    cases hx
    cases hy
    exact .ec ha hb hl
  | sym ha hk hb hk' hl => exact .sym ha hb (by rw [hk', hk]) (hs _ ha) hl

/-- **C118.** A verifier that has nothing but the exported key set answers every token, compact or JSON, exactly as
one with the private keys does: the same message or the same exception. -/
theorem C118_published {E : Env} (hE : Standard E) (ks : List Key) (hex : ∀ k ∈ ks, Exportable E k)
    (hw : ∀ k ∈ ks, RsaMatches k) :
    ∃ s ks', Keys.dumpJwks ks = .ok s ∧ Keys.loadJwks E [] s = (.ok (), ks') ∧
      (∀ (o : Jwx) jws an sigalg, (o.verifyCompact E jws ks' an sigalg).1 = (o.verifyCompact E jws ks an sigalg).1) ∧
      ∀ (o : Jwx) jws an sigalg, (o.verifyJson E jws ks' an sigalg).1 = (o.verifyJson E jws ks an sigalg).1 := by
  obtain ⟨s, ks', h1, h2, h3⟩ := C84_jwks E ks [] hex
  have h4 : List.Forall₂ SameHalf ks ks' := by
    clear h1 h2
    induction h3 with
    | nil => exact .nil
    | @cons a b _ _ hab _ ih =>
      refine .cons (exported_half hE hab (hw _ (by simp)) ?_) (ih (fun k hk => hex k (by simp [hk]))
        fun k hk => hw k (by simp [hk]))
      intro kk hkk
      have := hex a (by simp)
      cases this with
      | rsa hm => rw [hm] at hkk; cases hkk
      | ec hm => rw [hm] at hkk; cases hkk
      | sym hm hk hne =>
        rw [hk]
        simpa [KObj.truthy, PyVal.truthy] using hne
  exact ⟨s, ks', h1, by simpa using h2, fun o jws an sa => C118_compact hE o jws h4 an sa,
    fun o jws an sa => C118_json hE o jws h4 an sa⟩

/-! ### Examples -/

theorem exEncSet_matches : ∀ k ∈ exEncSet, RsaMatches k := by
  intro k hk m N hm hN
  simp only [exEncSet, List.mem_cons, List.not_mem_nil, or_false] at hk
  rcases hk with rfl | rfl | rfl
  · cases hm
  · cases hm
    refine ⟨bigRsa, rfl, ?_, ?_⟩
    · have h1 := hN.n
      generalize hv : PyVal.int bigRsa.n = v at h1
      cases h1
      simpa using hv
    · have h1 := hN.e
      generalize hv : PyVal.int bigRsa.e = v at h1
      cases h1
      simpa using hv
  · cases hm

/-- The set of an EC, an RSA and a symmetric key. -/
example := C118_published stdEnv_standard exEncSet exEncSet_exportable exEncSet_matches

/-- Encryption for the key of 1042 bits and for its public half. -/
example (rnd : JweRnd) (msg : PyVal) := C118_encrypt stdEnv_standard
  { msg := msg, dict := [("alg", .str "RSA-OAEP"), ("enc", .str "A128GCM")] } rnd rfl .oaep (by intro h; cases h)
  (l := [bigKey bigRsa]) (l' := [bigKey ⟨bigRsa.n, 65537, none⟩])
  (.cons (.rsa rfl rfl rfl rfl ⟨rfl, rfl⟩ ⟨rfl, rfl, rfl, rfl⟩) .nil)
  (by intro k hk; cases List.mem_singleton.mp hk; rintro ⟨_, _, _, _, _, h⟩; cases h) [] [] none

end Verif
