import Verif.Props.JweHeader
/-
C92: a JWE object across calls.
-/

namespace Verif
open Spec

/-- Two objects that agree in everything but the entry `cek`. -/
structure Spec.SameBut (o o' : Jwe) : Prop where
  msg : o'.msg = o.msg
  jwk : o'.jwk = o.jwk
  jwt : o'.jwt = o.jwt
  key : o'.key = o.key
  epk : o'.epk = o.epk
  entries : ∀ n, n ≠ "cek" → PyDict.get? o'.dict n = PyDict.get? o.dict n

theorem Spec.SameBut.refl (o : Jwe) : SameBut o o := ⟨rfl, rfl, rfl, rfl, rfl, fun _ _ => rfl⟩

theorem Spec.SameBut.trans {a b c : Jwe} (h : SameBut a b) (h' : SameBut b c) : SameBut a c :=
  ⟨h'.msg.trans h.msg, h'.jwk.trans h.jwk, h'.jwt.trans h.jwt, h'.key.trans h.key, h'.epk.trans h.epk,
    fun n hn => (h'.entries n hn).trans (h.entries n hn)⟩

theorem sameBut_set (o : Jwe) (c : PyVal) : SameBut o { o with dict := PyDict.set o.dict "cek" c } :=
  ⟨rfl, rfl, rfl, rfl, rfl, fun n hn => by simp only; rw [PyDict.get?_set, if_neg hn]⟩

/-- A call on a JWE object. -/
inductive JweCall
  | encrypt (rnd : JweRnd) (keys : List Key) (cek iv : Bytes) (kid : Option PyVal)
  | decrypt (rnd : JweRnd) (token : Bytes) (keys : List Key) (alg : PyVal) (cek : Bytes)

/-- The object after a call. -/
def JweCall.after (E : Env) (o : Jwe) : JweCall → Jwe
  | .encrypt rnd keys cek iv kid => (o.encrypt E rnd keys cek iv kid).2
  | .decrypt rnd token keys alg cek => (o.decrypt E rnd token keys alg cek).2

/-- The object after calls. -/
def jweAfter (E : Env) (o : Jwe) (cs : List JweCall) : Jwe := cs.foldl (JweCall.after E) o

/-- **C92.** Whatever calls are made on an object, only its entry `cek` changes. -/
theorem C92_only_cek (E : Env) (o : Jwe) (cs : List JweCall) : SameBut o (jweAfter E o cs) := by
  induction cs generalizing o with
  | nil => exact .refl o
  | cons c cs ih =>
    refine Spec.SameBut.trans ?_ (ih (c.after E o))
    cases c with
    | encrypt rnd keys cek iv kid =>
      unfold JweCall.after Jwe.encrypt
      simp only
      split
      · exact sameBut_set o _
      · exact .refl o
    | decrypt rnd token keys alg cek =>
      unfold JweCall.after Jwe.decrypt
      simp only
      split
      · exact sameBut_set o _
      · exact .refl o

theorem keySource_same {E : Env} {o o' : Jwe} (h : SameBut o o') (keys : List Key) :
    o'.keySource E keys = o.keySource E keys := by
  unfold Jwx.keySource Jwx.getKeys PyDict.has
  rw [h.jwk, h.entries "jku" (by decide), h.entries "x5u" (by decide)]

theorem pickKeys_same {o o' : Jwe} (h : SameBut o o') (l : List JKey) (use : String) (alg : PyVal) :
    o'.pickKeys jweAlg2keytype l use alg = o.pickKeys jweAlg2keytype l use alg := by
  unfold Jwx.pickKeys Jwx.wantedKid
  simp only [PyVal.getItem]
  rw [h.entries "alg" (by decide), h.entries "kid" (by decide), h.jwt]

/-- **C92.** What decryption returns does not depend on the entry `cek`, so not on earlier calls. -/
theorem C92_decrypt {E : Env} {o o' : Jwe} (h : SameBut o o') (rnd : JweRnd) (token : Bytes) (keys : List Key)
    (alg : PyVal) (cek : Bytes) :
    (o'.decrypt E rnd token keys alg cek).1 = (o.decrypt E rnd token keys alg cek).1 := by
  have h1 : o'.tokenOf token = o.tokenOf token := by unfold Jwe.tokenOf; rw [h.jwt]
  have h2 : ∀ j, o'.decryptJwt E rnd j keys alg cek = o.decryptJwt E rnd j keys alg cek := by
    intro j
    unfold Jwe.decryptJwt
    simp only [keySource_same h, pickKeys_same h]
  unfold Jwe.decrypt
  simp only [h1, h2]
  split <;> rfl

theorem initFold_same {o o' : Jwe} (h : SameBut o o') : ∀ (l : List String), "cek" ∉ l → ∀ d,
    l.foldl (initStep o'.dict) d = l.foldl (initStep o.dict) d := by
  intro l
  induction l with
  | nil => exact fun _ d => rfl
  | cons a l ih =>
    intro hl d
    rw [List.foldl_cons, List.foldl_cons, ih (fun hx => hl (by simp [hx]))]
    have : initStep o'.dict d a = initStep o.dict d a := by
      unfold initStep
      rw [h.entries a (fun e => hl (by simp [e]))]
    rw [this]

/-- **C92.** What RSA, key wrap and direct agreement return does not depend on it either. -/
theorem C92_encrypt {E : Env} {o o' : Jwe} (h : SameBut o o') (rnd : JweRnd) (keys : List Key) (cek iv : Bytes)
    (kid : Option PyVal) {alg : String} {m : KeyMgmt} (halg : PyDict.get? o.dict "alg" = some (.str alg))
    (hm : MgmtName alg m) (hma : ∀ n, m ≠ .agreeWrap n) (t : String) :
    (o'.encrypt E rnd keys cek iv kid).1 = .ok t ↔ (o.encrypt E rnd keys cek iv kid).1 = .ok t := by
  have hr : o'.rsaEncrypter = o.rsaEncrypter := by
    unfold Jwe.rsaEncrypter
    rw [h.msg, h.jwk, h.epk, initFold_same h _ (by decide)]
  have hs : o'.symEncrypter = o.symEncrypter := by
    unfold Jwe.symEncrypter
    rw [h.msg, h.jwk, initFold_same h _ (by decide)]
  have hw : ∀ k, ((o'.encryptWith E rnd (.str alg) k cek iv kid).map Prod.fst = .ok t ↔
      (o.encryptWith E rnd (.str alg) k cek iv kid).map Prod.fst = .ok t) := by
    intro k
    unfold Jwe.encryptWith
    rw [mgmt_kind hm, hr, hs]
    cases m with
    | rsa p => exact Iff.rfl
    | wrap n => exact Iff.rfl
    | agreeWrap n => exact absurd rfl (hma n)
    | direct =>
      obtain rfl : alg = "ECDH-ES" := by cases hm; rfl
      simp only [Bind.bind, ebind_ok]
      have hal : PyDict.get? o.symEncrypter.dict "alg" = some (.str "ECDH-ES") := get?_initFold_alg _ _ halg _
      have hen : attrOf o'.dict "enc" = attrOf o.dict "enc" := by
        unfold attrOf; rw [h.entries _ (by decide)]
      rw [hen]
      have hb : ∀ a b : Jwe, SameBut a b →
          ∀ s, a.ecEncSetup E o.symEncrypter.dict rnd k = .ok s → b.ecEncSetup E o.symEncrypter.dict rnd k = .ok s := by
        intro a b hab s hs
        unfold Jwe.ecEncSetup at hs ⊢
        have hp : ∀ n d, n ≠ "cek" → partyParam b.dict n d = partyParam a.dict n d := by
          intro n d hn; unfold partyParam; rw [hab.entries n hn]
        have he : ∀ c, b.ephemeral rnd c = a.ephemeral rnd c := by
          intro c; unfold Jwe.ephemeral PyDict.has; rw [hab.epk, hab.entries "epk" (by decide)]
        have hi : storedBytes b.dict "iv" = storedBytes a.dict "iv" := by
          unfold storedBytes; rw [hab.entries "iv" (by decide)]
        simp only [hp "apu" _ (by decide), hp "apv" _ (by decide), he, hi, hal, Option.getD_some, if_true] at hs ⊢
        simp only [Bind.bind] at hs ⊢
        obtain ⟨apu, e1, hs1⟩ := bind_ok_iff.mp hs
        obtain ⟨apv, e2, hs2⟩ := bind_ok_iff.mp hs1
        obtain ⟨⟨crv, x, y, d, c⟩, e3, hs3⟩ := bind_ok_iff.mp hs2
        obtain ⟨curve, e4, hs4⟩ := bind_ok_iff.mp hs3
        obtain ⟨epk, e5, hs5⟩ := bind_ok_iff.mp hs4
        obtain ⟨ser, e6, hs6⟩ := bind_ok_iff.mp hs5
        obtain ⟨enc, e7, hs7⟩ := bind_ok_iff.mp hs6
        obtain ⟨⟨cek1, iv1⟩, e8, hs8⟩ := bind_ok_iff.mp hs7
        obtain ⟨⟨crv1, x1, y1, d1, c1⟩, e9, hs9⟩ := bind_ok_iff.mp hs8
        obtain ⟨⟨n, encB⟩, e10, hs10⟩ := bind_ok_iff.mp hs9
        obtain ⟨cek2, e11, hs11⟩ := bind_ok_iff.mp hs10
        cases hs11
        simp only at e4 e5 e10 e11
        -- the lengths of the content key are known, so a content key and an iv can be had
        obtain ⟨cek3, e12⟩ : ∃ cek3, generateKeyAndIv rnd enc (storedBytes b.dict "cek")
            (storedBytes a.dict "iv") = .ok (cek3, iv1) := by
          obtain ⟨es, nn, ii, rfl, hes⟩ : ∃ es nn ii, enc = .str es ∧ EncName es nn ii := by
            cases enc with
            | str es => obtain ⟨nn, ii, h1, -⟩ := keylen_is e10; exact ⟨es, nn, ii, rfl, h1⟩
            | _ => cases e10
          have hlk := (encName_lookup hes).1
          unfold generateKeyAndIv at e8 ⊢
          simp only [hlk] at e8 ⊢
          by_cases hiv : storedBytes a.dict "iv" = []
          · simp only [hiv, ne_eq, not_true_eq_false, and_false, if_false] at e8 ⊢
            cases e8
            exact ⟨_, rfl⟩
          · simp only [hiv, ne_eq, not_false_eq_true, and_true, if_true] at e8 ⊢
            have : iv1 = storedBytes a.dict "iv" := by
              split at e8 <;> cases e8 <;> rfl
            subst this
            split
            · exact ⟨_, rfl⟩
            · exact ⟨_, rfl⟩
        simp only [e1, e2, e3, e4, e5, e6, e7, e9, e10, e11, e12, ebind_ok]
      have hsym : SameBut o' o := ⟨h.msg.symm, h.jwk.symm, h.jwt.symm, h.key.symm, h.epk.symm,
        fun n hn => (h.entries n hn).symm⟩
      rcases hx : o.ecEncSetup E o.symEncrypter.dict rnd k with e | s
      · rcases hy : o'.ecEncSetup E o.symEncrypter.dict rnd k with e' | s
        · constructor <;> intro hh <;> cases hh
        · rw [hb o' o hsym s hy] at hx; cases hx
      · rw [hb o o' h s hx]
  unfold Jwe.encrypt
  simp only [PyVal.getItem, h.entries "alg" (by decide), halg, Bind.bind, ebind_ok, keySource_same h,
    pickKeys_same h]
  rcases o.keySource E keys with e | src
  · exact Iff.rfl
  simp only [ebind_ok]
  rcases o.pickKeys jweAlg2keytype src "enc" (.str "") with e | ks
  · exact Iff.rfl
  simp only [ebind_ok]
  cases ks with
  | nil => exact Iff.rfl
  | cons k ks =>
    have := hw k
    rcases ha : o'.encryptWith E rnd (.str alg) k cek iv kid with e | ⟨a1, a2⟩ <;>
      rcases hb : o.encryptWith E rnd (.str alg) k cek iv kid with e' | ⟨b1, b2⟩ <;>
      rw [ha, hb] at this <;> simp only [ha, hb] <;> simp [Except.map] at this ⊢ <;> exact this

/-- **C92.** Agreement with key wrap: a content key that the object has stored — that of the last RSA
token it decrypted or made — is used again for the new token. -/
theorem C92_reuse {E : Env} (hC : E.C.Lawful) (hH : E.H.Lawful) {o : Jwe} {rnd : JweRnd}
    (hr : RndLengths rnd) {keys : List Key} {cek iv : Bytes} {kid : Option PyVal} {t : String}
    {alg : String} {n : Nat} (halg : PyDict.get? o.dict "alg" = some (.str alg))
    (hm : MgmtName alg (.agreeWrap n)) (hv : RealValues o keys kid) {b : Bytes}
    (hb : PyDict.get? o.dict "cek" = some (.bytes b)) (hbl : b ≠ [] ∧ b.length < 2 ^ 61)
    (h : (o.encrypt E rnd keys cek iv kid).1 = .ok t) :
    ∃ l wk k, EffKeys o.toJwx keys l ∧ SignKid o.toJwx wk ∧ FirstPicked (.agreeWrap n) alg wk l k ∧
      ∀ (C : NistCurve) X Y, HasPoint C X Y k → (∀ e, o.epk = some e → EphemeralKey C e) →
        ∃ s0 hdr ek v ct tag enc pt,
          JweParts (utf8Encode t) s0 hdr ek v ct tag ∧ PyDict.get? o.dict "enc" = some (.str enc) ∧
          MsgBytes o.msg pt ∧ Sealed E enc b v s0 pt ct tag := by
  obtain ⟨l, wk, k, h1, h2, h3, h4⟩ := C90_ecdh hC hH hr halg hm trivial hv
    (by intro b' hb'; rw [hb] at hb'; cases hb'; exact hbl.2) h
  refine ⟨l, wk, k, h1, h2, h3, ?_⟩
  intro C X Y hp he
  obtain ⟨s0, hdr, ek, v, ct, tag, c, c0, i0, b0, enc, pt, apu, apv, z, d, ex, ey, hpa, henc, hmsg, hs, hst, -,
    ⟨_, _, -, hc, -⟩, -, -, -, -, -, -, -, hfin⟩ := h4 C X Y hp he
  have hb0 : b0 = b := by
    rcases hst with h | ⟨-, h⟩
    · rw [hb] at h; cases h; rfl
    · exact absurd hb (h b)
  subst hb0
  rw [if_neg hbl.1] at hc
  rcases hfin with ⟨h, -⟩ | ⟨rfl, -⟩
  · subst h
    generalize ha : "ECDH-ES" = a at hm
    cases hm <;> exact absurd ha (by decide)
  · subst hc
    exact ⟨s0, _, ek, v, ct, tag, enc, pt, hpa, henc, hmsg, hs⟩

/-! ### Examples -/

/-- C92_only_cek, C92_encrypt, C92_decrypt: an object that makes an RSA token makes the same token again,
whatever was done with it in between. -/
example : ∃ t, (exRsaer.encrypt toyEnv exRnd [exRsaPub]).1 = .ok t ∧ ∀ cs,
    ((jweAfter toyEnv exRsaer cs).encrypt toyEnv exRnd [exRsaPub]).1 = .ok t ∧
    ((jweAfter toyEnv {} cs).decrypt toyEnv exRnd (utf8Encode t) [exRsaPriv]).1 = .ok (utf8Encode "hello") := by
  obtain ⟨t, ht, hd⟩ := exRsaer_token
  refine ⟨t, ht, fun cs => ⟨(C92_encrypt (C92_only_cek toyEnv exRsaer cs) _ _ _ _ _ rfl .oaep
    (by intro n h; cases h) t).mpr ht, ?_⟩⟩
  rw [C92_decrypt (C92_only_cek toyEnv {} cs)]
  exact hd exRnd

/-- The object of the agreement example after it has stored a content key. -/
def exStored : Jwe := { exAgreer with dict := PyDict.set exAgreer.dict "cek" (.bytes (List.replicate 32 5)) }

/-- C92_reuse: the token is made with the stored content key. -/
example : ∃ t s0 hdr ek v ct tag pt, (exStored.encrypt toyEnv exRnd [exEcKey]).1 = .ok t ∧
    JweParts (utf8Encode t) s0 hdr ek v ct tag ∧ MsgBytes (.str "hello") pt ∧
    Sealed toyEnv "A128CBC-HS256" (List.replicate 32 5) v s0 pt ct tag := by
  obtain ⟨X, Y, -, hpt, -⟩ := exEcKey_ok
  have h : (exStored.encrypt toyEnv exRnd [exEcKey]).1.isOk = true := by decide +kernel
  rcases ht : (exStored.encrypt toyEnv exRnd [exEcKey]).1 with e | t
  · rw [ht] at h; cases h
  have hv : RealValues exStored [exEcKey] none := by
    refine ⟨fun n v hv => ?_, fun v hv => (by cases hv), exAgreer_real.kids, fun v hv => (by cases hv),
      fun v hv => (by cases hv)⟩
    rw [show exStored.dict = PyDict.set exAgreer.dict "cek" (.bytes (List.replicate 32 5)) from rfl,
      PyDict.get?_set] at hv
    split at hv
    · cases hv; trivial
    · exact exAgreer_real.dict n v hv
  obtain ⟨l, wk, k, h1, -, h2, h3⟩ := C92_reuse toyCipher_lawful toyHashes_lawful exRnd_lengths rfl .ec192 hv rfl
    ⟨by simp, by simp⟩ ht
  cases only_key h1 h2
  obtain ⟨s0, hdr, ek, v, ct, tag, enc, pt, hp, he, hm, hs⟩ := h3 P256 X Y hpt (by intro e h; cases h)
  cases he
  exact ⟨t, s0, hdr, ek, v, ct, tag, pt, rfl, hp, hm, hs⟩

end Verif
