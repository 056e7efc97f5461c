import Verif.Model.JweDirect
import Verif.Props.KeyWrap
import Verif.Props.JweSym
/-
C143: the class `JWE_SYM` used by itself with a `SYMKey` object.
-/

namespace Verif
open Spec

/-- A `SYMKey` object whose attribute `key` holds a secret, as bytes or as text. -/
def Spec.HoldsSecret (k : Key) (secret : Bytes) : Prop :=
  (∃ kk, k.mat = .sym kk) ∧
    (k.key = .val (.bytes secret) ∨ ∃ s, k.key = .val (.str s) ∧ secret = utf8Encode s)

theorem symSecret_holds {k : Key} {secret : Bytes} (h : HoldsSecret k secret) :
    symSecret k = .obj (.val (.bytes secret)) := by
  obtain ⟨⟨kk, hkk⟩, hk | ⟨s, hk, rfl⟩⟩ := h <;> simp [symSecret, hkk, hk]

/-- The outcome of a direct decryption of the parts of a token. -/
theorem jweSymDecrypt_parts {E : Env} {token s0 ek iv ct tag : Bytes} {h' : PyDict} {enc : PyVal}
    (hp : JweParts token s0 (.dict h') ek iv ct tag) (henc : PyDict.get? h' "enc" = some enc)
    {k : Key} {secret : Bytes} (hk : HoldsSecret k secret) :
    jweSymDecrypt E token k =
      (aesUnwrapKey E.C secret ek).bind fun cek => jweDecrypt E enc cek ct s0 iv tag := by
  obtain ⟨hb, hun⟩ := jweParts_unpack hp
  unfold jweSymDecrypt
  simp [hun, Jwt.partAt, symSecret_holds hk, symKek, Bind.bind, Except.bind, PyVal.getItem, henc,
    Jwt.b64ProtectedHeader]

/-- A content key given by the caller is used. -/
theorem generate_given {rnd : JweRnd} {enc : PyVal} {cek iv c iv' : Bytes}
    (h : generateKeyAndIv rnd enc cek iv = .ok (c, iv')) (hne : cek ≠ []) : c = cek := by
  unfold generateKeyAndIv at h
  split at h
  · cases h; rfl
  · split at h
    · split at h
      · cases h; rfl
      · cases h
    all_goals cases h

/-- What the token holds. -/
theorem symEncrypt_opens {E : Env} (hC : E.C.Lawful) (hH : E.H.Lawful) {o : Jwe} {rnd : JweRnd}
    (hr : RndLengths rnd) {kek cek iv : Bytes} {kid : Option PyVal} {t : String} {alg : String}
    (halg : PyDict.get? o.dict "alg" = some (.str alg)) (hne : alg ≠ "")
    (hd : Distinct (.dict o.dict)) (hj : ∀ v, o.jwk = some (.other v) → Distinct v)
    (hkid : ∀ v, kid = some v → Distinct v) (hcek : cek.length % 8 = 0 ∧ cek.length < 2 ^ 61)
    (h : o.symEncrypt E rnd (.obj (.val (.bytes kek))) cek iv kid = .ok t) :
    ∃ m enc c s0 h' ek iv' ct tag, o.msg = .str m ∧ PyDict.get? o.dict "enc" = some (.str enc) ∧
      JweParts (utf8Encode t) s0 (.dict h') ek iv' ct tag ∧
      PyDict.get? h' "alg" = some (.str alg) ∧ PyDict.get? h' "enc" = some (.str enc) ∧
      aesWrapKey E.C kek c = .ok ek ∧ aesUnwrapKey E.C kek ek = .ok c ∧
      jweDecrypt E (.str enc) c ct s0 iv' tag = .ok (utf8Encode m) ∧ c.length % 8 = 0 ∧ c.length < 2 ^ 61 ∧
      (cek ≠ [] → c = cek) := by
  obtain ⟨kek', enc, c, iv', ek, m, s0, h', ct, tag, hkek, henc, hgen, hjek, hmm, hparts, hh', hes⟩ :=
    symEncrypt_ok halg hne hd hj hkid h
  cases hkek
  obtain ⟨hc1, hc2, hc3⟩ := generate_ok hr hgen
  obtain ⟨mb, hmb, hfam, hdec⟩ := encSetup_roundtrip hC hH hc1 hc2 hes
  cases hmb
  obtain ⟨encs, rfl, hencs⟩ := enc_is_str hfam
  have hA : PyDict.get? h' "alg" = some (.str alg) := by
    obtain ⟨w, hw, hw'⟩ := b2sConvD_get? (name := "alg") hh' (.str alg) (by
      rw [get?_jwencArgs (by decide), get?_withKid (by decide)]
      exact halg)
    cases hw; exact hw'
  have hE : PyDict.get? h' "enc" = some (.str encs) := by
    obtain ⟨w, hw, hw'⟩ := b2sConvD_get? (name := "enc") hh' (.str encs) (by
      rw [get?_jwencArgs (by decide), get?_withKid (by decide)]
      exact henc)
    cases hw; exact hw'
  have hok := aesKeyOk_of_wrap hjek
  have hlen : c.length % 8 = 0 ∧ c.length < 2 ^ 61 := by
    rcases hc3 with rfl | ⟨-, hl⟩
    · exact hcek
    · simp only [List.mem_cons, List.not_mem_nil, or_false] at hl
      rcases hl with hl | hl | hl | hl | hl <;> rw [hl] <;> norm_num
  obtain ⟨w, e1, -, e2⟩ := C35_roundtrip E.C hC kek c 0xa6a6a6a6a6a6a6a6 hok (by norm_num) hlen.1 hlen.2
  have hwj : w = ek := by
    have : aesWrapKey E.C kek c = .ok w := e1
    rw [hjek] at this; cases this; rfl
  subst hwj
  exact ⟨m, encs, c, s0, h', w, iv', ct, tag, hmm, henc, hparts, hA, hE, hjek, e2, hdec, hlen.1, hlen.2,
    generate_given hgen⟩

/-- **C143.** What `JWE_SYM.encrypt` makes with a `SYMKey` object: the message is text, the secret is
16, 24 or 32 bytes long whatever `alg` says, the second segment is the content key wrapped by RFC 3394
under the secret itself, and every `SYMKey` object with this secret, as bytes or text, opens the
token directly. -/
theorem C143_roundtrip {E : Env} (hC : E.C.Lawful) (hH : E.H.Lawful) {o : Jwe} {rnd : JweRnd}
    (hr : RndLengths rnd) {k : Key} {secret cek iv : Bytes} {kid : Option PyVal} {t : String} {alg : String}
    (halg : PyDict.get? o.dict "alg" = some (.str alg)) (hne : alg ≠ "")
    (hd : Distinct (.dict o.dict)) (hj : ∀ v, o.jwk = some (.other v) → Distinct v)
    (hkid : ∀ v, kid = some v → Distinct v) (hcek : cek.length % 8 = 0 ∧ cek.length < 2 ^ 61)
    (hk : HoldsSecret k secret) (h : jweSymEncrypt E o rnd k cek iv kid = .ok t) :
    (secret.length = 16 ∨ secret.length = 24 ∨ secret.length = 32) ∧
    ∃ m c s0 h' iv' ct tag, o.msg = .str m ∧
      JweParts (utf8Encode t) s0 (.dict h')
        (rfc3394Wrap E.C secret 0xA6A6A6A6A6A6A6A6 (blocks8 c)) iv' ct tag ∧
      ∀ k2, HoldsSecret k2 secret → jweSymDecrypt E (utf8Encode t) k2 = .ok (utf8Encode m) := by
  unfold jweSymEncrypt at h
  rw [symSecret_holds hk] at h
  obtain ⟨m, enc, c, s0, h', ek, iv', ct, tag, hm, -, hp, -, hE, hw, hu, hdec, h8, hl, -⟩ :=
    symEncrypt_opens hC hH hr halg hne hd hj hkid hcek h
  have hok := aesKeyOk_of_wrap hw
  refine ⟨by simpa [aesKeyOk, or_assoc] using hok, m, c, s0, h', iv', ct, tag, hm, ?_, fun k2 hk2 => ?_⟩
  · have := (C37_default E.C hC secret c hok hl).1
    rw [hw] at this
    cases this
    exact hp
  · rw [jweSymDecrypt_parts hp hE hk2, hu]
    exact hdec

/-- **C143.** Direct decryption succeeds only with a secret of 16, 24 or 32 bytes. -/
theorem C143_length {E : Env} {token : Bytes} {k : Key} {secret pt : Bytes} (hk : HoldsSecret k secret)
    (h : jweSymDecrypt E token k = .ok pt) :
    secret.length = 16 ∨ secret.length = 24 ∨ secret.length = 32 := by
  unfold jweSymDecrypt at h
  simp only [Bind.bind] at h
  obtain ⟨j, hj, h1⟩ := bind_ok_iff.mp h
  obtain ⟨c, hc, -⟩ := bind_ok_iff.mp h1
  split at hc
  · cases hc
  · simp only [ne_eq, not_true_eq_false, if_false] at hc
    obtain ⟨jek, -, h2⟩ := bind_ok_iff.mp hc
    rw [symSecret_holds hk] at h2
    simp only [symKek] at h2
    unfold aesUnwrapKey aesUnwrapKeyAndIV at h2
    simp only [Bind.bind] at h2
    obtain ⟨x, hx, -⟩ := bind_ok_iff.mp h2
    obtain ⟨a, -, h3⟩ := bind_ok_iff.mp hx
    obtain ⟨u, hu, -⟩ := bind_ok_iff.mp h3
    have hok : aesKeyOk secret = true := by
      unfold aesNew at hu
      split at hu
      · assumption
      · cases hu
    simpa [aesKeyOk, or_assoc] using hok

/-- **C143.** A token made with a content key from the caller is opened by giving this content key, whatever
the key object. -/
theorem C143_supplied {E : Env} (hC : E.C.Lawful) (hH : E.H.Lawful) {o : Jwe} {rnd : JweRnd}
    (hr : RndLengths rnd) {k : Key} {secret cek iv : Bytes} {kid : Option PyVal} {t : String} {alg : String}
    (halg : PyDict.get? o.dict "alg" = some (.str alg)) (hne : alg ≠ "")
    (hd : Distinct (.dict o.dict)) (hj : ∀ v, o.jwk = some (.other v) → Distinct v)
    (hkid : ∀ v, kid = some v → Distinct v) (hcek : cek.length % 8 = 0 ∧ cek.length < 2 ^ 61)
    (hk : HoldsSecret k secret) (h : jweSymEncrypt E o rnd k cek iv kid = .ok t) (hcne : cek ≠ []) :
    ∃ m, o.msg = .str m ∧ ∀ k2, jweSymDecrypt E (utf8Encode t) k2 cek = .ok (utf8Encode m) := by
  unfold jweSymEncrypt at h
  rw [symSecret_holds hk] at h
  obtain ⟨m, enc, c, s0, h', ek, iv', ct, tag, hm, -, hp, -, hE, -, -, hdec, -, -, hcc⟩ :=
    symEncrypt_opens hC hH hr halg hne hd hj hkid hcek h
  obtain rfl := hcc hcne
  refine ⟨m, hm, fun k2 => ?_⟩
  obtain ⟨hb, hun⟩ := jweParts_unpack hp
  unfold jweSymDecrypt
  simp [hun, hcne, Jwt.partAt, Bind.bind, Except.bind, PyVal.getItem, hE, Jwt.b64ProtectedHeader, hdec]

/-- **C143.** Direct decryption succeeds only for exactly five segments (`JWE.decrypt` takes more), and uses
the key only if no content key is given. -/
theorem C143_five {E : Env} {token : Bytes} {k : Key} {cek pt : Bytes}
    (h : jweSymDecrypt E token k cek = .ok pt) :
    (∃ segs, Segments token segs ∧ segs.length = 5) ∧
      (cek ≠ [] → ∀ k2, jweSymDecrypt E token k2 cek = .ok pt) := by
  constructor
  · unfold jweSymDecrypt at h
    simp only [Bind.bind] at h
    obtain ⟨j, hj, h1⟩ := bind_ok_iff.mp h
    obtain ⟨c, hc, -⟩ := bind_ok_iff.mp h1
    obtain ⟨-, hseg, hpart, -⟩ := (C09_unpack_iff _ _).mp hj
    refine ⟨j.b64part, hseg, ?_⟩
    split at hc
    · cases hc
    · rename_i hlen
      rw [hpart.length_eq]
      omega
  · intro hne k2
    rw [← h]
    unfold jweSymDecrypt
    simp only [if_pos hne]

/-- **C143.** A key of another class encrypts nothing and opens nothing. -/
theorem C143_class {E : Env} {k : Key} (hk : ∀ kk, k.mat ≠ .sym kk) :
    (∀ o rnd cek iv kid t, jweSymEncrypt E o rnd k cek iv kid ≠ .ok t) ∧
      ∀ token pt, jweSymDecrypt E token k ≠ .ok pt := by
  have hs : symSecret k = .obj (.val .none) := by
    unfold symSecret
    split
    · rename_i h _; exact absurd h (hk _)
    · rename_i h _; exact absurd h (hk _)
    · rfl
  constructor
  · intro o rnd cek iv kid t h
    unfold jweSymEncrypt Jwe.symEncrypt at h
    rw [hs] at h
    simp only [Bind.bind] at h
    obtain ⟨_, _, h1⟩ := bind_ok_iff.mp h
    obtain ⟨_, _, h2⟩ := bind_ok_iff.mp h1
    obtain ⟨_, _, h3⟩ := bind_ok_iff.mp h2
    obtain ⟨_, hk', _⟩ := bind_ok_iff.mp h3
    cases hk'
  · intro token pt h
    unfold jweSymDecrypt at h
    simp only [Bind.bind] at h
    obtain ⟨j, hj, h1⟩ := bind_ok_iff.mp h
    obtain ⟨c, hc, -⟩ := bind_ok_iff.mp h1
    split at hc
    · cases hc
    · simp only [ne_eq, not_true_eq_false, if_false] at hc
      obtain ⟨jek, -, h2⟩ := bind_ok_iff.mp hc
      rw [hs] at h2
      simp only [symKek] at h2
      obtain ⟨_, _, h3⟩ := bind_ok_iff.mp h2
      cases h3

/-- What `JWE.encrypt` makes with a single shared key. -/
theorem jwe_single_shared {E : Env} (hC : E.C.Lawful) (hH : E.H.Lawful) {o : Jwe} {rnd : JweRnd}
    (hr : RndLengths rnd) {k : Key} {secret cek iv : Bytes} {kid : Option PyVal} {t : String}
    {alg : String} {n : Nat} (halg : PyDict.get? o.dict "alg" = some (.str alg))
    (hm : MgmtName alg (.wrap n)) (hv : RealValues o [k] kid) (hk : SharedKey k secret)
    (hcek : cek.length % 8 = 0 ∧ cek.length < 2 ^ 61)
    (h : (o.encrypt E rnd [k] cek iv kid).1 = .ok t) :
    ∃ m enc c s0 h' ek iv' ct tag, o.msg = .str m ∧
      JweParts (utf8Encode t) s0 (.dict h') ek iv' ct tag ∧ PyDict.get? h' "enc" = some (.str enc) ∧
      aesWrapKey E.C ((E.H.hash .sha256 secret).take n) c = .ok ek ∧
      aesUnwrapKey E.C ((E.H.hash .sha256 secret).take n) ek = .ok c ∧
      jweDecrypt E (.str enc) c ct s0 iv' tag = .ok (utf8Encode m) ∧ c.length % 8 = 0 ∧ c.length < 2 ^ 61 := by
  obtain ⟨l, wk, k', c, heff, hsk, hf, hw⟩ := jwe_encrypt_ok halg hm h
  have hl : l = [k] := by
    rcases heff with ⟨-, rfl⟩ | ⟨hx, -⟩
    · rfl
    · cases hx
  subst hl
  have hkl : k' ∈ [k] := by obtain ⟨pre, post, e, -⟩ := hf; rw [e]; simp
  obtain rfl : k' = k := by simpa using hkl
  unfold Jwe.encryptWith at hw
  rw [mgmt_kind hm] at hw
  simp only [Bind.bind, Except.bind] at hw
  obtain ⟨ka, hka, hw1⟩ := bind_ok_iff.mp hw
  obtain ⟨t', ht', hw2⟩ := bind_ok_iff.mp hw1
  cases hw2
  rw [(shared_encryptionKey hH hk hm true).1] at hka
  cases hka
  have hjk : (o.symEncrypter.setKid k').jwk = o.jwk := by
    unfold Jwe.setKid; split <;> rfl
  have hmsg : (o.symEncrypter.setKid k').msg = o.msg := by
    unfold Jwe.setKid; split <;> rfl
  obtain ⟨m, enc, c, s0, h', ek, iv', ct, tag, hmm, -, hp, -, hE, hw3, hu, hdec, h8, hl, -⟩ :=
    symEncrypt_opens hC hH hr
      (by rw [get?_setKid (by decide)]; exact get?_initFold_alg _ _ halg _) (mgmt_keytype hm).1
      (distinct_setKid (distinct_initFold hv.dict _ _ distinct_nil) (hv.key_kid heff hkl))
      (by rw [hjk]; exact hv.jwk) hv.kid hcek ht'
  exact ⟨m, enc, c, s0, h', ek, iv', ct, tag, by rw [← hmsg]; exact hmm, hp, hE, hw3, hu, hdec, h8, hl⟩

/-- **C143.** The tokens of `JWE.encrypt` for a key with secret `s` are opened directly by the
`SYMKey` whose secret is the first bytes of the SHA-256 digest of `s`. -/
theorem C143_from_jwe {E : Env} (hC : E.C.Lawful) (hH : E.H.Lawful) {o : Jwe} {rnd : JweRnd}
    (hr : RndLengths rnd) {k : Key} {secret cek iv : Bytes} {kid : Option PyVal} {t : String}
    {alg : String} {n : Nat} (halg : PyDict.get? o.dict "alg" = some (.str alg))
    (hm : MgmtName alg (.wrap n)) (hv : RealValues o [k] kid) (hk : SharedKey k secret)
    (hcek : cek.length % 8 = 0 ∧ cek.length < 2 ^ 61)
    (h : (o.encrypt E rnd [k] cek iv kid).1 = .ok t) :
    ∃ m, o.msg = .str m ∧
      ∀ k2, HoldsSecret k2 ((E.H.hash .sha256 secret).take n) →
        jweSymDecrypt E (utf8Encode t) k2 = .ok (utf8Encode m) := by
  obtain ⟨m, enc, c, s0, h', ek, iv', ct, tag, hmm, hp, hE, -, hu, hdec, -, -⟩ :=
    jwe_single_shared hC hH hr halg hm hv hk hcek h
  refine ⟨m, hmm, fun k2 hk2 => ?_⟩
  rw [jweSymDecrypt_parts hp hE hk2, hu]
  exact hdec

/-- **C143.** With the secret itself they are opened only by coincidence: there must be a content key
whose wrap under the secret is the wrap, under the digest, of the content key of the token. -/
theorem C143_apart {E : Env} (hC : E.C.Lawful) (hH : E.H.Lawful) {o : Jwe} {rnd : JweRnd}
    (hr : RndLengths rnd) {k : Key} {secret cek iv : Bytes} {kid : Option PyVal} {t : String}
    {alg : String} {n : Nat} (halg : PyDict.get? o.dict "alg" = some (.str alg))
    (hm : MgmtName alg (.wrap n)) (hv : RealValues o [k] kid) (hk : SharedKey k secret)
    (hcek : cek.length % 8 = 0 ∧ cek.length < 2 ^ 61)
    (h : (o.encrypt E rnd [k] cek iv kid).1 = .ok t) {pt : Bytes}
    (hopen : jweSymDecrypt E (utf8Encode t) k = .ok pt) :
    ∃ s0 h' ek iv' ct tag c c', JweParts (utf8Encode t) s0 h' ek iv' ct tag ∧
      ek = rfc3394Wrap E.C ((E.H.hash .sha256 secret).take n) 0xA6A6A6A6A6A6A6A6 (blocks8 c) ∧
      ek = rfc3394Wrap E.C secret 0xA6A6A6A6A6A6A6A6 (blocks8 c') := by
  obtain ⟨m, enc, c, s0, h', ek, iv', ct, tag, hmm, hp, hE, hw, hu, hdec, h8, hl⟩ :=
    jwe_single_shared hC hH hr halg hm hv hk hcek h
  have hks : HoldsSecret k secret := ⟨hk.1, .inl hk.2.1⟩
  have hsec := C143_length hks hopen
  rw [jweSymDecrypt_parts hp hE hks] at hopen
  obtain ⟨c', hc', -⟩ := bind_ok_iff.mp hopen
  have hr1 := (C37_default E.C hC _ c (aesKeyOk_of_wrap hw) hl).1
  rw [hw] at hr1
  have hlen : ek.length = c.length + 8 := by
    obtain ⟨w, e1, e2, -⟩ := C35_roundtrip E.C hC _ c 0xa6a6a6a6a6a6a6a6 (aesKeyOk_of_wrap hw) (by norm_num) h8 hl
    have e1 : aesWrapKey E.C _ c = .ok w := e1
    rw [hw] at e1
    cases e1
    exact e2
  obtain ⟨g1, g2, g3⟩ := C36_genuine E.C hC secret ek c' _ hc'
  have htake : ek.take (ek.length / 8 * 8) = ek := by
    apply List.take_of_length_le
    omega
  rw [htake] at g1
  have g1 : aesWrapKey E.C secret c' = .ok ek := g1
  have hr2 := (C37_default E.C hC secret c' (aesKeyOk_of_wrap g1) (by omega)).1
  rw [g1] at hr2
  exact ⟨s0, _, ek, iv', ct, tag, c, c', hp, Except.ok.inj hr1, Except.ok.inj hr2⟩

/-- **C143.** And the tokens made directly with the first bytes of the digest of `s` are opened by
`JWE.decrypt` with the key of secret `s`. -/
theorem C143_to_jwe {E : Env} (hC : E.C.Lawful) (hH : E.H.Lawful) {o : Jwe} {rnd : JweRnd}
    (hr : RndLengths rnd) {kd : Key} {secret cek iv : Bytes} {kid : Option PyVal} {t : String}
    {alg : String} {n : Nat} (halg : PyDict.get? o.dict "alg" = some (.str alg))
    (hm : MgmtName alg (.wrap n)) (hd : Distinct (.dict o.dict))
    (hj : ∀ v, o.jwk = some (.other v) → Distinct v) (hkid : ∀ v, kid = some v → Distinct v)
    (hcek : cek.length % 8 = 0 ∧ cek.length < 2 ^ 61)
    (hkd : HoldsSecret kd ((E.H.hash .sha256 secret).take n))
    (h : jweSymEncrypt E o rnd kd cek iv kid = .ok t) :
    ∃ m, o.msg = .str m ∧
      ∀ (o2 : Jwe) rnd2 keys l wk k, SharedKey k secret → EffKeys o2.toJwx keys l → SignKid o2.toJwx wk →
        FirstPicked (.wrap n) alg wk l k → (o2.decrypt E rnd2 (utf8Encode t) keys).1 = .ok (utf8Encode m) := by
  unfold jweSymEncrypt at h
  rw [symSecret_holds hkd] at h
  obtain ⟨m, enc, c, s0, h', ek, iv', ct, tag, hmm, -, hp, hA, hE, -, hu, hdec, -, -, -⟩ :=
    symEncrypt_opens hC hH hr halg (mgmt_keytype hm).1 hd hj hkid hcek h
  refine ⟨m, hmm, fun o2 rnd2 keys l wk k hk heff hsk hf => ?_⟩
  obtain ⟨hb, hun⟩ := jweParts_unpack hp
  obtain ⟨rest, hd1, hd2⟩ := decrypt_single (E := E) (rnd := rnd2) hun rfl hA hm heff hsk hf []
  rw [hd2, hd1]
  obtain ⟨hka, hok⟩ := shared_encryptionKey hH hk hm false
  generalize hkek : (E.H.hash .sha256 secret).take n = kek at *
  have hkne : kek ≠ [] := by
    rintro rfl; cases hok
  simp only [decryptTry, if_true, decryptLoop, hka, decryptBy]
  rw [symDecrypt_parts rfl hE kek hkne]
  simp only [hu, Except.bind, hdec, Except.map]

theorem jweSymNew_short (E : Env) (m : PyVal) (alg enc : String) :
    jweSymNew E m [("alg", .str alg), ("enc", .str enc)] =
      .ok { msg := m, dict := [("alg", .str alg), ("enc", .str enc)] } := by
  rfl

/-- **C143.** The complete scenario: any of the three names under `alg`, any of the six content
encryptions, any text, any secret of 16, 24 or 32 bytes (whether it is the length `alg` calls for or
not). -/
theorem C143_total {E : Env} (hC : E.C.Lawful) (hH : E.H.Lawful) {rnd : JweRnd} (hr : RndLengths rnd)
    {alg enc : String} {n kl il : Nat} (hm : MgmtName alg (.wrap n)) (he : EncName enc kl il)
    (m : String) (hl : (utf8Encode m).length ≤ 16 * 2 ^ 32) {k : Key} {secret : Bytes}
    (hk : HoldsSecret k secret)
    (hs : secret.length = 16 ∨ secret.length = 24 ∨ secret.length = 32) :
    ∃ o t, jweSymNew E (.str m) [("alg", .str alg), ("enc", .str enc)] = .ok o ∧
      jweSymEncrypt E o rnd k = .ok t ∧
      ∀ k2, HoldsSecret k2 secret → jweSymDecrypt E (utf8Encode t) k2 = .ok (utf8Encode m) := by
  have hne : alg ≠ "" := (mgmt_keytype hm).1
  suffices h : ∃ t, jweSymEncrypt E { msg := .str m, dict := [("alg", .str alg), ("enc", .str enc)] } rnd k
      = .ok t by
    obtain ⟨t, ht⟩ := h
    refine ⟨_, t, jweSymNew_short E _ alg enc, ht, ?_⟩
    obtain ⟨-, m', c, s0, h', iv', ct, tag, hm', -, ho⟩ :=
      C143_roundtrip hC hH hr (alg := alg) rfl hne (by simp [Distinct, DistinctD]) (by simp) (by simp)
        (by simp) hk ht
    cases hm'
    exact ho
  have hkok : aesKeyOk secret = true := by
    unfold aesKeyOk
    rcases hs with h | h | h <;> rw [h] <;> decide
  obtain ⟨bh, hbh, hbl⟩ := short_header hm he
  obtain ⟨hlk, -⟩ := encName_lookup he
  have hgen : generateKeyAndIv rnd (.str enc) [] [] = .ok (rnd.key kl, rnd.iv il) := by
    unfold generateKeyAndIv
    simp [hlk]
  have hkl8 : kl % 8 = 0 ∧ kl < 2 ^ 61 := by cases he <;> norm_num
  obtain ⟨w, hw, -⟩ := C35_roundtrip E.C hC secret (rnd.key kl) 0xa6a6a6a6a6a6a6a6 hkok (by norm_num)
    (by rw [hr.1]; exact hkl8.1) (by rw [hr.1]; exact hkl8.2)
  have hw : aesWrapKey E.C secret (rnd.key kl) = .ok w := hw
  obtain ⟨ct, tag, hes⟩ := encSetup_total (E := E) (rnd := rnd) hC hH he (m := utf8Encode m) (aad := bh)
    (hr.1 kl) (hr.2 il) hl hbl
  have hinit : Jwt.init [("alg", .str alg), ("enc", .str enc)] =
      .ok { headers := .dict [("alg", .str alg), ("enc", .str enc)], b64part := [bh],
            part := [(b64d bh).toOption.getD []] } := by
    obtain ⟨x, rfl⟩ := b64encodeItem_b64e hbh
    have ht : (PyVal.str alg).truthy = true := by simp [PyVal.truthy, hne]
    unfold Jwt.init
    have hself : PyDict.has [("alg", PyVal.str alg), ("enc", PyVal.str enc)] "self" = false := rfl
    rw [hself, if_neg (by decide)]
    simp only [show PyDict.get? [("alg", PyVal.str alg), ("enc", PyVal.str enc)] "alg" =
      some (.str alg) from rfl, Option.getD_some, ht, if_true, hbh, Bind.bind, Except.bind, C01_roundtrip]
    rfl
  obtain ⟨t, ht⟩ := pack_succeeds
      (j := Jwt.mk (.dict [("alg", .str alg), ("enc", .str enc)]) [bh] [(b64d bh).toOption.getD []]) rfl (by simp) (by rfl)
      (ek := .bytes w) (.inr rfl) (rnd.iv il) ct tag
  refine ⟨t, ?_⟩
  unfold jweSymEncrypt Jwe.symEncrypt
  rw [symSecret_holds hk]
  simp only [withKid, jwencNew, Option.isSome_none, Bool.false_eq_true, if_false, hinit, Bind.bind,
    Except.bind, show PyVal.getItem (.dict [("alg", PyVal.str alg), ("enc", PyVal.str enc)]) "enc" =
      .ok (.str enc) from rfl, hgen, symKek, hw, strEncode, Jwt.b64EncodeHeader, hbh, hes, ht]

/-- A key with a secret of 24 bytes, as text. -/
def exDirect : Key := { exShared with key := .val (.str "abcdefghijklmnopqrstuvwx") }

theorem exDirect_holds : HoldsSecret exDirect (utf8Encode "abcdefghijklmnopqrstuvwx") :=
  ⟨⟨_, rfl⟩, .inr ⟨_, rfl, rfl⟩⟩

/-- C143_total, C143_roundtrip, C143_length: 24 bytes under the name of AES-128. -/
example : ∃ o t, jweSymNew toyEnv (.str "hello") [("alg", .str "A128KW"), ("enc", .str "A256GCM")] = .ok o ∧
    jweSymEncrypt toyEnv o exRnd exDirect = .ok t ∧
    ∀ k2, HoldsSecret k2 (utf8Encode "abcdefghijklmnopqrstuvwx") →
      jweSymDecrypt toyEnv (utf8Encode t) k2 = .ok (utf8Encode "hello") :=
  C143_total toyCipher_lawful toyHashes_lawful exRnd_lengths .a128 .g256 "hello" (by decide +kernel)
    exDirect_holds (.inr (.inl (by decide)))

/-- C143_to_jwe: made directly with the digest, opened with the secret. -/
example : ∃ o t, jweSymNew toyEnv (.str "hello") [("alg", .str "A128KW"), ("enc", .str "A256GCM")] = .ok o ∧
    jweSymEncrypt toyEnv o exRnd
      { exShared with key := .val (.bytes ((toyEnv.H.hash .sha256 (ascii "k")).take 16)) } = .ok t ∧
    ∀ rnd2, (Jwe.decrypt toyEnv {} rnd2 (utf8Encode t) [exShared]).1 = .ok (utf8Encode "hello") := by
  have hk : HoldsSecret { exShared with key := .val (.bytes ((toyEnv.H.hash .sha256 (ascii "k")).take 16)) }
      ((toyEnv.H.hash .sha256 (ascii "k")).take 16) := ⟨⟨_, rfl⟩, .inl rfl⟩
  obtain ⟨o, t, h1, h2, -⟩ := C143_total (E := toyEnv) toyCipher_lawful toyHashes_lawful exRnd_lengths .a128 .g256
    "hello" (by decide +kernel) hk (.inl (by
      rw [List.length_take, show (toyEnv.H.hash .sha256 (ascii "k")).length = 32 from
        toyHashes_lawful.hash_length _ _]; decide))
  rw [jweSymNew_short] at h1
  cases h1
  obtain ⟨m, hm, ho⟩ := C143_to_jwe toyCipher_lawful toyHashes_lawful exRnd_lengths (alg := "A128KW") rfl
    .a128 (by simp [Distinct, DistinctD]) (by simp) (by simp) (by simp) hk h2
  cases hm
  exact ⟨_, t, jweSymNew_short _ _ _ _, h2, fun rnd2 => ho {} rnd2 [exShared] [exShared] .none exShared exShared_ok
    (.inl ⟨by simp, rfl⟩) (.inr ⟨rfl, .inl ⟨rfl, rfl⟩⟩) ⟨[], [], rfl, exShared_picked, by simp⟩⟩

/-- A key with a secret of 16 bytes, which the hash function of the examples leaves as it is. -/
def exDirect16 : Key := { exShared with key := .val (.bytes (ascii "0123456789abcdef")) }

/-- C143_from_jwe, C143_apart. -/
example : ∃ o t, Jwe.new toyEnv (.str "hello") [("alg", .str "A128KW"), ("enc", .str "A256GCM")] = .ok o ∧
    (o.encrypt toyEnv exRnd [exDirect16]).1 = .ok t ∧
    jweSymDecrypt toyEnv (utf8Encode t) exDirect16 = .ok (utf8Encode "hello") ∧
    ∃ s0 h' ek iv' ct tag c c', JweParts (utf8Encode t) s0 h' ek iv' ct tag ∧
      ek = rfc3394Wrap toyEnv.C ((toyEnv.H.hash .sha256 (ascii "0123456789abcdef")).take 16)
        0xA6A6A6A6A6A6A6A6 (blocks8 c) ∧
      ek = rfc3394Wrap toyEnv.C (ascii "0123456789abcdef") 0xA6A6A6A6A6A6A6A6 (blocks8 c') := by
  have hk : SharedKey exDirect16 (ascii "0123456789abcdef") := ⟨⟨_, rfl⟩, rfl, by decide⟩
  obtain ⟨o, t, h1, h2, -⟩ := C57_total (E := toyEnv) toyCipher_lawful toyHashes_lawful exRnd_lengths .a128 .g256
    "hello" (by decide +kernel) hk ⟨.inl rfl, by decide, by decide, by decide⟩ (by decide)
  rw [jwe_new_short] at h1
  cases h1
  have hv : RealValues { msg := .str "hello", dict := [("alg", .str "A128KW"), ("enc", .str "A256GCM")] }
      [exDirect16] none := by
    constructor
    · intro n v hv
      have : v = .str "A128KW" ∨ v = .str "A256GCM" := by
        simp only [PyDict.get?, List.lookup_cons, List.lookup_nil] at hv
        split at hv
        · cases hv; simp
        · split at hv
          · cases hv; simp
          · cases hv
      rcases this with rfl | rfl <;> trivial
    · intro v hv; cases hv
    · intro x hx
      rw [List.mem_singleton] at hx
      subst hx
      exact distinct_of_falsy (by decide)
    · intro v hv; cases hv
    · intro v hv; cases hv
  obtain ⟨m, hm, ho⟩ := C143_from_jwe (E := toyEnv) toyCipher_lawful toyHashes_lawful exRnd_lengths
    (alg := "A128KW") rfl .a128 hv hk (by simp) h2
  cases hm
  have hd : (toyEnv.H.hash .sha256 (ascii "0123456789abcdef")).take 16 = ascii "0123456789abcdef" := by decide
  have hopen := ho exDirect16 ⟨⟨_, rfl⟩, .inl (by rw [hd]; rfl)⟩
  exact ⟨_, t, jwe_new_short _ _ _ _, h2, hopen,
    C143_apart (E := toyEnv) toyCipher_lawful toyHashes_lawful exRnd_lengths (alg := "A128KW") rfl .a128 hv hk
      (by simp) h2 hopen⟩

/-- C143_supplied, C143_five. -/
example : ∃ t, jweSymEncrypt toyEnv { msg := .str "hello", dict := [("alg", .str "A128KW"), ("enc", .str "A128CBC-HS256")] }
      exRnd exDirect16 (List.replicate 32 5) = .ok t ∧
    ∀ k2, jweSymDecrypt toyEnv (utf8Encode t) k2 (List.replicate 32 5) = .ok (utf8Encode "hello") := by
  have h : ∃ t, jweSymEncrypt toyEnv
      { msg := .str "hello", dict := [("alg", .str "A128KW"), ("enc", .str "A128CBC-HS256")] }
      exRnd exDirect16 (List.replicate 32 5) = .ok t := by
    have key : (match jweSymEncrypt toyEnv
        { msg := .str "hello", dict := [("alg", .str "A128KW"), ("enc", .str "A128CBC-HS256")] }
        exRnd exDirect16 (List.replicate 32 5) with
        | .ok _ => true
        | .error _ => false) = true := by decide +kernel
    split at key
    · rename_i t ht; exact ⟨t, ht⟩
    · cases key
  obtain ⟨t, ht⟩ := h
  obtain ⟨m, hm, ho⟩ := C143_supplied (E := toyEnv) toyCipher_lawful toyHashes_lawful exRnd_lengths (alg := "A128KW")
    (secret := ascii "0123456789abcdef") rfl (by decide) (by simp [Distinct, DistinctD]) (by simp) (by simp)
    (by simp) ⟨⟨_, rfl⟩, .inl rfl⟩ ht (by simp)
  cases hm
  exact ⟨t, ht, ho⟩

/-- C143_class: an elliptic-curve key labelled `oct`. -/
example : jweSymDecrypt toyEnv (ascii "e30.AA.AA.AA.AA")
      { exShared with mat := .ec (.str "P-256") .none .none .none (.val .none) } ≠ .ok (ascii "x") :=
  (C143_class (k := { exShared with mat := .ec (.str "P-256") .none .none .none (.val .none) }) (by simp)).2 _ _

end Verif
