import Verif.Props.JweDirectEc
/-
C146: encrypting with the class JWE_EC.
-/

namespace Verif
open Spec

/-- **C146.** `enc_setup`, then `encrypt` with all that it returned: what comes out is opened by `JWE.decrypt`. -/
theorem C146_roundtrip {E : Env} (hC : E.C.Lawful) (hH : E.H.Lawful) {o o' : Jwe} {rnd rnd' : JweRnd}
    (hr : RndLengths rnd) {msg : PyVal} {k : Key} {kw : PyDict} {epk : Option Key} {cek' iv' : Bytes} {ek : PyVal}
    {params : PyDict} {kid : Option PyVal} {t : String} {alg : String} {m : KeyMgmt}
    (halg : PyDict.get? o.dict "alg" = some (.str alg)) (hm : MgmtName alg m) (hma : IsAgreement m)
    (hdis : Distinct (.dict o.dict)) (hjwk : ∀ v, o.jwk = some (.other v) → Distinct v)
    (hkid : ∀ v, kid = some v → Distinct v)
    (hcek : ∀ b, PyDict.get? kw "cek" = some (.bytes b) → b.length % 8 = 0 ∧ b.length < 2 ^ 61)
    {C : NistCurve} {X Y : Int} {D : Nat} (hk : HasPoint C X Y k) (hepk : ∀ e, epk = some e → EphemeralKey C e)
    (hpubD : C.publicKeyFor D = some (X, Y))
    (hs : jweEcEncSetup E o rnd msg k kw epk = (.ok (cek', ek, iv', params), o'))
    (h : jweEcEncrypt E o' rnd' cek' iv' (some ek) params kid = .ok t) :
    ∃ mb hdr, MsgBytes msg mb ∧ TokenHeader (utf8Encode t) hdr ∧ PyDict.get? hdr "alg" = some (.str alg) ∧
      ∀ (o2 : Jwe) rnd2 keys2 l2 wk2 k2, HasScalar D k2 →
        EffKeys o2.toJwx keys2 l2 → SignKid o2.toJwx wk2 → FirstPicked m alg wk2 l2 k2 →
        (o2.decrypt E rnd2 (utf8Encode t) keys2).1 = .ok mb := by
  obtain ⟨hne, hnn, -⟩ := mgmt_keytype hm
  simp only [jweEcEncSetup, Prod.mk.injEq] at hs
  obtain ⟨hsetup, rfl⟩ := hs
  obtain ⟨apu, apv, e, ex, ey, ed, enc, cek0, z, px, py, hpub, hdist, rfl, henc, hgen, hz, hagr⟩ :=
    ecEncSetup_ok hk hepk halg hsetup
  obtain ⟨hc1, hc2, hc3⟩ := generate_ok hr hgen
  obtain ⟨ekb, hekb⟩ : ∃ ekb, MsgBytes ek ekb := by
    rcases hagr with ⟨-, _, _, -, -, rfl⟩ | ⟨-, _, _, _, jek, -, -, -, rfl, -⟩
    · exact ⟨_, .inl ⟨_, rfl, rfl⟩⟩
    · exact ⟨_, .inr rfl⟩
  have hsa := halg
  obtain ⟨enc1, bh, h', ct, tag, henc1, hparts, hh', hes⟩ :=
    ecEncrypt_ok (o := { o with msg := msg }) halg hne hdis hjwk hkid (by
        intro p hp
        simp only [List.mem_cons, List.not_mem_nil, or_false] at hp
        rcases hp with rfl | rfl | rfl
        · trivial
        · trivial
        · exact hdist) (by simp) rfl rfl hekb h
  rw [henc] at henc1
  cases henc1
  have hcne : cek' ≠ [] := by
    rcases hagr with ⟨-, n, encB, hkl, hder, -⟩ | ⟨-, _, _, _, _, -, -, -, -, rfl⟩
    · exact derived_ne hH (keylen_ok hkl).1 (keylen_ok hkl).2 hder
    · exact hc1
  obtain ⟨mb, hmb, hfam, hdec⟩ := encSetup_roundtrip hC hH hcne hc2 hes
  obtain ⟨encs, rfl, hencs⟩ := enc_is_str hfam
  -- the header as it comes back
  have hback : ∀ n v, n ≠ "kid" → n ≠ "jwk" → PyDict.get? [("apu", PyVal.bytes (b64e apu)),
      ("apv", .bytes (b64e apv)), ("epk", .dict (ecDict e C ex ey none))] n = none →
      PyDict.get? o.dict n = some v → ∃ w, b2sConv v = .ok w ∧ PyDict.get? h' n = some w := by
    intro n v h1 h2 h3 h4
    exact b2sConvD_get? hh' v (by
      rw [get?_jwencArgs h2, get?_update_none (by simp) h3, get?_withKid h1]; exact h4)
  have hpar : ∀ n v, n ≠ "jwk" → PyDict.get? [("apu", PyVal.bytes (b64e apu)),
      ("apv", .bytes (b64e apv)), ("epk", .dict (ecDict e C ex ey none))] n = some v →
      ∃ w, b2sConv v = .ok w ∧ PyDict.get? h' n = some w := by
    intro n v h2 h3
    exact b2sConvD_get? hh' v (by rw [get?_jwencArgs h2, get?_update_some (by simp) h3])
  have hA : PyDict.get? h' "alg" = some (.str alg) := by
    obtain ⟨w, hw, hw'⟩ := hback "alg" _ (by decide) (by decide) rfl hsa
    cases hw; exact hw'
  have hE : PyDict.get? h' "enc" = some (.str encs) := by
    obtain ⟨w, hw, hw'⟩ := hback "enc" _ (by decide) (by decide) rfl henc
    cases hw; exact hw'
  refine ⟨mb, h', asBytes_msg hmb, ⟨_, _, _, _, _, hparts⟩, hA, ?_⟩
  intro o2 rnd2 keys2 l2 wk2 k2 hk2 heff2 hsk2 hf2
  obtain ⟨w1, hw1, hU⟩ := hpar "apu" _ (by decide) rfl
  obtain ⟨su, rfl, hsu⟩ := b2sConv_b64e hw1
  obtain ⟨w2, hw2, hV⟩ := hpar "apv" _ (by decide) rfl
  obtain ⟨sv, rfl, hsv⟩ := b2sConv_b64e hw2
  obtain ⟨w3, hw3, hP⟩ := hpar "epk" _ (by decide) rfl
  obtain ⟨d', hd', rfl⟩ : ∃ d', b2sConvD (ecDict e C ex ey none) = .ok d' ∧ w3 = .dict d' := by
    simp only [b2sConv] at hw3
    cases hx : b2sConvD (ecDict e C ex ey none) with
    | error _ => rw [hx] at hw3; cases hw3
    | ok d' => rw [hx] at hw3; cases hw3; exact ⟨d', rfl, rfl⟩
  have hsome : ∀ n s, PyDict.get? (ecDict e C ex ey none) n = some (.str s) → PyDict.get? d' n = some (.str s) := by
    intro n s hs
    obtain ⟨w, hw, hw'⟩ := b2sConvD_get? hd' _ hs
    cases hw; exact hw'
  have hnone : ∀ n, PyDict.get? (ecDict e C ex ey none) n = none → PyDict.get? d' n = none :=
    fun n hs => b2sConvD_get?_none hd' hs
  obtain ⟨_, _, _, hn, -⟩ := hk
  obtain ⟨hcn, hsound⟩ := hn.name
  have hzD : C.dhZ D (some ((ex : Int), (ey : Int))) = .ok z := by
    rw [← hpub, (NistCurve.C54_agreement hsound D ed).1, hpubD]; exact hz
  obtain ⟨hb, hun⟩ := jweParts_unpack hparts
  obtain ⟨rest, hd1, hd2⟩ := decrypt_single (E := E) (rnd := rnd2) hun rfl hA hm heff2 hsk2 hf2 []
  have hds := ecDecSetup_recovers (E := E) (k := k2) (D := D) (C := C) rfl hA hE hU hsu hV hsv hP px py
    (hsome "x" _ (by simp [ecDict, get?_optSet, PyDict.get?_set]))
    (hsome "y" _ (by simp [ecDict, get?_optSet, PyDict.get?_set]))
    (hsome "crv" _ (by simp [ecDict, get?_optSet, PyDict.get?_set]))
    (hnone "d" (by simp [ecDict, get?_optSet, PyDict.get?_set, get?_common]))
    (hnone "self" (by simp [ecDict, get?_optSet, PyDict.get?_set, get?_common]))
    (hnone "key" (by simp [ecDict, get?_optSet, PyDict.get?_set, get?_common]))
    (hnone "curve" (by simp [ecDict, get?_optSet, PyDict.get?_set, get?_common]))
    hcn hk2 hzD (s0 := bh) (ek := ekb) (iv := iv') (ct := ct) (tag := tag) (hb := hb)
  have hds' : ecDecSetup E (Jwt.mk (.dict h') [bh, b64e ekb, b64e iv', b64e ct, b64e tag]
      [hb, ekb, iv', ct, tag]) k2 = .ok (cek', iv', ct, tag) := by
    rw [hds]
    rcases hagr with ⟨rfl, n, encB, hkl, hder, -⟩ | ⟨ha, post, n, kek, jek, hkw, hder, hwr, rfl, rfl⟩
    · simp only [if_true, hkl, Bind.bind, ebind_ok, hder]
    · rw [if_neg ha]
      simp only [hkw, Bind.bind, ebind_ok, hder]
      have : ekb = jek := by
        rcases hekb with ⟨_, h, -⟩ | h
        · cases h
        · cases h; rfl
      subst this
      have hok := aesKeyOk_of_wrap hwr
      have hlen : cek'.length % 8 = 0 ∧ cek'.length < 2 ^ 61 := by
        rcases hc3 with hs | ⟨-, hl⟩
        · unfold storedBytes at hs
          split at hs
          · rename_i b hb; subst hs; exact hcek _ hb
          · exact absurd hs hc1
        · simp only [List.mem_cons, List.not_mem_nil, or_false] at hl
          rcases hl with hl | hl | hl | hl | hl <;> rw [hl] <;> norm_num
      obtain ⟨w, e1, -, e2⟩ := C35_roundtrip E.C hC kek cek' 0xa6a6a6a6a6a6a6a6 hok (by norm_num) hlen.1 hlen.2
      have hwj : w = ekb := by
        have : aesWrapKey E.C kek cek' = .ok w := e1
        rw [hwr] at this; cases this; rfl
      subst hwj
      have e2 : aesUnwrapKey E.C kek w = .ok cek' := e2
      simp only [e2, ebind_ok]
  have hfin : ecDecrypt E (Jwt.mk (.dict h') [bh, b64e ekb, b64e iv', b64e ct, b64e tag]
      [hb, ekb, iv', ct, tag]) (cek', iv', ct, tag) = .ok mb := by
    unfold ecDecrypt
    simp only [if_neg hcne, PyVal.getItem, hE, Bind.bind, ebind_ok, Jwt.b64ProtectedHeader,
      List.getElem?_cons_zero, hdec]
  rw [hd2, hd1]
  cases m with
  | wrap n => cases hma
  | rsa p => cases hma
  | direct =>
    simp only [hds', ebind_ok, decryptTry, if_neg hcne, decryptBy, hfin, Except.map]
  | agreeWrap n =>
    simp only [hds', ebind_ok, decryptTry, if_neg hcne, decryptBy, hfin, Except.map]

/-- **C146.** And by a `JWE_EC` object: `dec_setup`, then `decrypt`. -/
theorem C146_direct {E : Env} (hC : E.C.Lawful) (hH : E.H.Lawful) {o o' : Jwe} {rnd rnd' : JweRnd}
    (hr : RndLengths rnd) {msg : PyVal} {k : Key} {kw : PyDict} {epk : Option Key} {cek iv : Bytes} {ek : PyVal}
    {params : PyDict} {kid : Option PyVal} {t : String} {alg : String} {m : KeyMgmt}
    (halg : PyDict.get? o.dict "alg" = some (.str alg)) (hm : MgmtName alg m) (hma : IsAgreement m)
    (hdis : Distinct (.dict o.dict)) (hjwk : ∀ v, o.jwk = some (.other v) → Distinct v)
    (hkid : ∀ v, kid = some v → Distinct v)
    (hcek : ∀ b, PyDict.get? kw "cek" = some (.bytes b) → b.length % 8 = 0 ∧ b.length < 2 ^ 61)
    {C : NistCurve} {X Y : Int} {D : Nat} (hk : HasPoint C X Y k) (hepk : ∀ e, epk = some e → EphemeralKey C e)
    (hpubD : C.publicKeyFor D = some (X, Y))
    (hs : jweEcEncSetup E o rnd msg k kw epk = (.ok (cek, ek, iv, params), o'))
    (h : jweEcEncrypt E o' rnd' cek iv (some ek) params kid = .ok t)
    {k2 : Key} (hk2 : HasScalar D k2) (hp2 : EncPicked m alg .none k2) (before : List EcCall) :
    ∃ j mb, Jwt.unpack (utf8Encode t) = .ok j ∧ MsgBytes msg mb ∧
      (∃ c, ((ecRun E before).decSetup E j k2).1 = .ok c) ∧
      (ecRun E (before ++ [.setup j k2])).decrypt E j = .ok mb := by
  obtain ⟨mb, hdr, hmb, ⟨_, _, _, _, _, hparts⟩, ha, H⟩ :=
    C146_roundtrip hC hH hr halg hm hma hdis hjwk hkid hcek hk hepk hpubD hs h
  obtain ⟨hb, hun⟩ := jweParts_unpack hparts
  have h2 : EffKeys (({} : Jwe).toJwx) [k2] [k2] := .inl ⟨by simp, rfl⟩
  have h3 : SignKid (({} : Jwe).toJwx) .none := .inr ⟨rfl, .inl ⟨rfl, rfl⟩⟩
  have hf2 : FirstPicked m alg .none [k2] k2 := ⟨[], [], rfl, hp2, by simp⟩
  exact ⟨_, mb, hun, hmb, C145_opens hun rfl ha hm hma h2 h3 hf2 (H {} rnd [k2] [k2] .none k2 hk2 h2 h3 hf2) before⟩

/-- **C146.** Both steps do succeed. -/
theorem C146_total {E : Env} (hC : E.C.Lawful) (hH : E.H.Lawful) {rnd : JweRnd} (hr : RndLengths rnd)
    (hu : rnd.apu.length < 2 ^ 32) (hv : rnd.apv.length < 2 ^ 32)
    {alg enc : String} {m : KeyMgmt} {kl il : Nat} (hm : MgmtName alg m) (hma : IsAgreement m)
    (he : EncName enc kl il) {msgv : PyVal} {msg : Bytes} (hmsg : MsgBytes msgv msg)
    (hl : msg.length ≤ 16 * 2 ^ 32) {k : Key} {C : NistCurve} {X Y : Int} {D : Nat}
    (hk : HasPoint C X Y k) (hkd : HasScalar D k)
    (hD : 0 < D ∧ D < C.N) (hpub : C.publicKeyFor D = some (X, Y))
    (heph : ∀ y, (C.keyPair rnd.eph).2 ≠ some (0, y))
    (hp : EncPicked m alg .none k) (hkid : k.kid.truthy = false) :
    ∃ cek ek iv params o' t,
      jweEcEncSetup E { dict := [("alg", .str alg), ("enc", .str enc)] } rnd msgv k = (.ok (cek, ek, iv, params), o') ∧
      jweEcEncrypt E o' rnd cek iv (some ek) params = .ok t := by
  obtain ⟨o, t, ho, ht, -⟩ := C59_total hC hH hr hu hv hm hma he hmsg hl hk hkd hkd hD hpub heph hp hp hkid
  rw [jwe_new_short] at ho
  cases ho
  obtain ⟨l, wk, k', c, heff, hsk, hf, hw⟩ := jwe_encrypt_ok rfl hm ht
  cases only_key heff hf
  have hkind : jweKind (.str alg) = .ok .ec := by
    rw [mgmt_kind hm]; cases m <;> first | rfl | cases hma
  unfold Jwe.encryptWith at hw
  rw [hkind] at hw
  simp only [Bind.bind, ebind_ok] at hw
  obtain ⟨⟨cek', ek, iv', params⟩, hsetup, hw1⟩ := bind_ok_iff.mp hw
  obtain ⟨_, -, hw2⟩ := bind_ok_iff.mp hw1
  obtain ⟨_, -, hw3⟩ := bind_ok_iff.mp hw2
  obtain ⟨t', ht', hw4⟩ := bind_ok_iff.mp hw3
  cases hw4
  have hset : Jwe.symEncrypter { msg := msgv, dict := [("alg", .str alg), ("enc", .str enc)] } =
      { msg := msgv, dict := [("alg", .str alg), ("enc", .str enc)] } := rfl
  rw [hset] at hsetup ht'
  have hsk' : ∀ x : Jwe, x.setKid k = x := by
    intro x; unfold Jwe.setKid; rw [if_neg (by simp [hkid])]
  rw [hsk'] at ht'
  exact ⟨cek', ek, iv', params, _, t, Prod.ext hsetup rfl, ht'⟩

/-! ### What must be handed over -/

theorem ecEncrypt_three {E : Env} {o : Jwe} {rnd : JweRnd} {cek iv : Bytes} {params : PyDict}
    {kid : Option PyVal} {t : String} {alg : String}
    (halg : PyDict.get? o.dict "alg" = some (.str alg)) (hne : alg ≠ "")
    (hd : Distinct (.dict o.dict)) (hj : ∀ v, o.jwk = some (.other v) → Distinct v)
    (hk : ∀ v, kid = some v → Distinct v) (hp : ∀ p ∈ params, Distinct p.2) (hn : (params.map Prod.fst).Nodup)
    (pa : PyDict.get? params "alg" = none)
    (h : jweEcEncrypt E o rnd cek iv none params kid = .ok t) :
    ∃ j ct tag hb, Jwt.unpack (utf8Encode t) = .ok j ∧ j.part = [hb, iv, ct, tag] := by
  unfold jweEcEncrypt at h
  simp only [Bind.bind] at h
  obtain ⟨jwe, hjwe, h1⟩ := bind_ok_iff.mp h
  obtain ⟨enc, henc, h2⟩ := bind_ok_iff.mp h1
  obtain ⟨hdr, hhdr, h3⟩ := bind_ok_iff.mp h2
  obtain ⟨⟨ct, tag⟩, hes, h4⟩ := bind_ok_iff.mp h3
  have ha : PyDict.get? (PyDict.update (withKid o.dict kid) params) "alg" = some (.str alg) := by
    rw [get?_update_none hn pa, get?_withKid (by decide), halg]
  have hhd := jwencNew_ok hjwe (by rw [ha]; simp [PyVal.truthy, hne])
  have hne' : jwencArgs (PyDict.update (withKid o.dict kid) params) o.jwk ≠ [] :=
    ne_nil_of_get? (n := "alg") (by rw [get?_jwencArgs (by decide)]; exact ha)
  obtain ⟨bh, bs, g1, g2, g3⟩ := pack_ok hhd hne' (by simp) h4
  obtain ⟨hs, h', e1, e2, e3⟩ :=
    header_text (distinct_jwencArgs (distinct_update (distinct_withKid hd hk) hp) hj) g1
  have g2 := mapM_forall₂.mp g2
  match bs, g2 with
  | [b, c, d], .cons hb (.cons hc (.cons hd .nil)) =>
    cases hb; cases hc; cases hd
    have := unpack_joinDot hs [iv, ct, tag] _ (by simp) e2
    subst e1
    exact ⟨_, ct, tag, utf8Encode hs, by rw [g3]; exact this, rfl⟩

/-- **C146 (departure).** Without `encrypted_key` the token has four segments; no key opens it: `dec_setup` raises
IndexError. -/
theorem C146_four {E : Env} {o : Jwe} {rnd : JweRnd} {cek iv : Bytes} {params : PyDict}
    {kid : Option PyVal} {t : String} {alg : String}
    (halg : PyDict.get? o.dict "alg" = some (.str alg)) (hne : alg ≠ "")
    (hd : Distinct (.dict o.dict)) (hj : ∀ v, o.jwk = some (.other v) → Distinct v)
    (hk : ∀ v, kid = some v → Distinct v) (hp : ∀ p ∈ params, Distinct p.2) (hn : (params.map Prod.fst).Nodup)
    (pa : PyDict.get? params "alg" = none)
    (h : jweEcEncrypt E o rnd cek iv none params kid = .ok t) :
    ∃ j, Jwt.unpack (utf8Encode t) = .ok j ∧ j.part.length = 4 ∧
      ∀ (s : EcObj) k, (s.decSetup E j k).1 = .error .indexError := by
  obtain ⟨j, ct, tag, hb, h1, h2⟩ := ecEncrypt_three halg hne hd hj hk hp hn pa h
  refine ⟨j, h1, by rw [h2]; rfl, fun s k => ?_⟩
  unfold EcObj.decSetup
  simp [Jwt.partAt, h2]

/-- **C146 (departure).** Without `params` the header has no ephemeral key; no key opens the token: `dec_setup` raises. -/
theorem C146_no_params {E : Env} {o : Jwe} {rnd : JweRnd} {cek iv ekb : Bytes} {ek : PyVal}
    {kid : Option PyVal} {t : String} {alg : String}
    (halg : PyDict.get? o.dict "alg" = some (.str alg)) (hne : alg ≠ "") (hepk : PyDict.get? o.dict "epk" = none)
    (hd : Distinct (.dict o.dict)) (hj : ∀ v, o.jwk = some (.other v) → Distinct v)
    (hk : ∀ v, kid = some v → Distinct v) (hek : MsgBytes ek ekb)
    (h : jweEcEncrypt E o rnd cek iv (some ek) [] kid = .ok t) :
    ∃ j, Jwt.unpack (utf8Encode t) = .ok j ∧ ∀ (s : EcObj) k, (s.decSetup E j k).1 = .error .generic := by
  obtain ⟨enc, bh, h', ct, tag, -, hparts, hh', -⟩ :=
    ecEncrypt_ok halg hne hd hj hk (by simp) (by simp) rfl rfl hek h
  obtain ⟨hb, hun⟩ := jweParts_unpack hparts
  refine ⟨_, hun, fun s k => decSetup_noEpk ⟨_, _, _, rfl⟩ rfl (b2sConvD_get?_none hh' ?_)⟩
  rw [get?_jwencArgs (by decide)]
  simp only [PyDict.update, List.foldl_nil]
  rw [get?_withKid (by decide), hepk]

/-- **C146 (departure).** Without `iv` the message is encrypted with a random one that is not put into the token: its
third segment is empty, and with a CBC content encryption nothing opens it. -/
theorem C146_no_iv {E : Env} (hC : E.C.Lawful) {o : Jwe} {rnd : JweRnd} {cek ekb : Bytes} {ek : PyVal}
    {params : PyDict} {kid : Option PyVal} {t : String} {alg enc : String} {n : Nat}
    (halg : PyDict.get? o.dict "alg" = some (.str alg)) (hne : alg ≠ "")
    (henc : PyDict.get? o.dict "enc" = some (.str enc)) (he : EncName enc n 16)
    (hd : Distinct (.dict o.dict)) (hj : ∀ v, o.jwk = some (.other v) → Distinct v)
    (hk : ∀ v, kid = some v → Distinct v) (hp : ∀ p ∈ params, Distinct p.2) (hn : (params.map Prod.fst).Nodup)
    (pa : PyDict.get? params "alg" = none) (pe : PyDict.get? params "enc" = none) (hek : MsgBytes ek ekb)
    (h : jweEcEncrypt E o rnd cek [] (some ek) params kid = .ok t) :
    ∃ j s0 hdr ct tag, JweParts (utf8Encode t) s0 (.dict hdr) ekb [] ct tag ∧ Jwt.unpack (utf8Encode t) = .ok j ∧
      ∀ before k x m, (ecRun E (before ++ [.setup j k])).decrypt E x ≠ .ok m := by
  obtain ⟨enc', bh, h', ct, tag, henc', hparts, hh', -⟩ :=
    ecEncrypt_ok halg hne hd hj hk hp hn pa pe hek h
  rw [henc] at henc'
  cases henc'
  have hE : PyDict.get? h' "enc" = some (.str enc) := by
    have : PyDict.get? (jwencArgs (PyDict.update (withKid o.dict kid) params) o.jwk) "enc" = some (.str enc) := by
      rw [get?_jwencArgs (by decide), get?_update_none hn pe, get?_withKid (by decide), henc]
    obtain ⟨w, hw, hw'⟩ := b2sConvD_get? hh' _ this
    cases hw; exact hw'
  obtain ⟨hb, hun⟩ := jweParts_unpack hparts
  refine ⟨_, bh, h', ct, tag, hparts, hun, ?_⟩
  intro before k x m hdec
  have hrun : ∀ jj, ∃ s : EcObj, ecRun E (before ++ [.setup jj k]) = (s.decSetup E jj k).2 := by
    intro jj
    unfold ecRun
    rw [List.foldl_append, List.foldl_cons, List.foldl_nil]
    exact ⟨_, rfl⟩
  obtain ⟨s, hs⟩ := hrun (Jwt.mk (.dict h') [bh, b64e ekb, b64e [], b64e ct, b64e tag] [hb, ekb, [], ct, tag])
  rw [hs, decSetup_five (iv := []) (ct := ct) (tag := tag) ⟨_, _, _, rfl⟩] at hdec
  have key : ∀ c, EcObj.decrypt E ⟨some (.dict h'), some [], some ct, some tag, c⟩ x ≠ .ok m := by
    intro c hx
    unfold EcObj.decrypt at hx
    cases c with
    | none => cases hx
    | some c =>
      simp only at hx
      split at hx
      · cases hx
      · simp only [PyVal.getItem, hE, Bind.bind, ebind_ok] at hx
        obtain ⟨hdr, -, hx⟩ := bind_ok_iff.mp hx
        rcases ((C111_exact hC).mp hx).1 with ⟨hg, -⟩ | ⟨-, hiv, -⟩
        · cases he <;> revert hg <;> simp
        · simp at hiv
  split at hdec
  · exact key _ hdec
  · exact key _ hdec

/-! ### Examples -/

/-- The object of the following examples. -/
def exEcObj : Jwe := { msg := .str "hello", dict := [("alg", .str "ECDH-ES+A192KW"), ("enc", .str "A128CBC-HS256")] }

theorem exEcObj_distinct : Distinct (.dict [("alg", .str "ECDH-ES+A192KW"), ("enc", .str "A128CBC-HS256")]) :=
  ⟨by decide, trivial, trivial, trivial⟩

theorem exEcEnc_total : ∃ cek ek iv params o' t,
    jweEcEncSetup toyEnv { dict := [("alg", .str "ECDH-ES+A192KW"), ("enc", .str "A128CBC-HS256")] } exRnd (.str "hello")
      exEcKey = (.ok (cek, ek, iv, params), o') ∧
    jweEcEncrypt toyEnv o' exRnd cek iv (some ek) params = .ok t := by
  obtain ⟨X, Y, h1, h2, h3⟩ := exEcKey_ok
  refine C146_total (E := toyEnv) toyCipher_lawful toyHashes_lawful exRnd_lengths (by decide +kernel) (by decide +kernel)
    .ec192 trivial .c128 (.inl ⟨_, rfl, rfl⟩) (by decide +kernel) h2 h3 (by decide +kernel) h1 ?_
    ⟨.inr (.inl rfl), by decide, by decide, by decide⟩ (by decide)
  have : ((P256.keyPair exRnd.eph).2.map fun p => decide (p.1 = 0)) = some false := by decide +kernel
  intro y hy
  rw [hy] at this
  cases this

/-- `enc_setup` and `encrypt`, then `dec_setup` and `decrypt`. -/
example : ∃ t j, Jwt.unpack (utf8Encode t) = .ok j ∧
    (ecRun toyEnv [.setup j exEcKey]).decrypt toyEnv j = .ok (utf8Encode "hello") := by
  obtain ⟨cek, ek, iv, params, o', t, h1, h2⟩ := exEcEnc_total
  obtain ⟨X, Y, g1, g2, g3⟩ := exEcKey_ok
  obtain ⟨j, mb, e1, e2, -, e3⟩ := C146_direct (E := toyEnv) toyCipher_lawful toyHashes_lawful exRnd_lengths
    (alg := "ECDH-ES+A192KW") rfl .ec192 trivial exEcObj_distinct (by intro v hv; cases hv) (by intro v hv; cases hv)
    (by intro b hb; cases hb) g2 (by intro e he; cases he) g1 h1 h2 g3 ⟨.inr (.inl rfl), by decide, by decide, by decide⟩ []
  refine ⟨t, j, e1, ?_⟩
  rcases e2 with ⟨s, hs, rfl⟩ | hs
  · cases hs; exact e3
  · cases hs

theorem ok_of_isSome {α : Type} {x : PyM α} (h : x.toOption.isSome = true) : ∃ a, x = .ok a := by
  cases x with
  | error e => cases h
  | ok a => exact ⟨a, rfl⟩

example : ∃ t j, jweEcEncrypt toyEnv exEcObj exRnd (List.replicate 32 1) (List.replicate 16 2) = .ok t ∧
    Jwt.unpack (utf8Encode t) = .ok j ∧ j.part.length = 4 ∧
    ∀ (s : EcObj) k, (s.decSetup toyEnv j k).1 = .error .indexError := by
  obtain ⟨t, ht⟩ : ∃ t, jweEcEncrypt toyEnv exEcObj exRnd (List.replicate 32 1) (List.replicate 16 2) = .ok t :=
    ok_of_isSome (by decide +kernel)
  obtain ⟨j, h⟩ := C146_four (E := toyEnv) (alg := "ECDH-ES+A192KW") rfl (by decide) exEcObj_distinct
    (by intro v hv; cases hv) (by intro v hv; cases hv) (by simp) (by simp) rfl ht
  exact ⟨t, j, ht, h⟩

example : ∃ t j, jweEcEncrypt toyEnv exEcObj exRnd (List.replicate 32 1) (List.replicate 16 2) (some (.bytes [3])) = .ok t ∧
    Jwt.unpack (utf8Encode t) = .ok j ∧ ∀ (s : EcObj) k, (s.decSetup toyEnv j k).1 = .error .generic := by
  obtain ⟨t, ht⟩ : ∃ t, jweEcEncrypt toyEnv exEcObj exRnd (List.replicate 32 1) (List.replicate 16 2)
      (some (.bytes [3])) = .ok t := ok_of_isSome (by decide +kernel)
  obtain ⟨j, h⟩ := C146_no_params (E := toyEnv) (alg := "ECDH-ES+A192KW") rfl (by decide) rfl
    exEcObj_distinct (by intro v hv; cases hv) (by intro v hv; cases hv) (.inr rfl) ht
  exact ⟨t, j, ht, h⟩

example : ∃ t j, jweEcEncrypt toyEnv exEcObj exRnd (List.replicate 32 1) [] (some (.bytes [3]))
      [("epk", .dict [("crv", .str "P-256")])] = .ok t ∧
    Jwt.unpack (utf8Encode t) = .ok j ∧
    ∀ before k x m, (ecRun toyEnv (before ++ [.setup j k])).decrypt toyEnv x ≠ .ok m := by
  obtain ⟨t, ht⟩ : ∃ t, jweEcEncrypt toyEnv exEcObj exRnd (List.replicate 32 1) [] (some (.bytes [3]))
      [("epk", .dict [("crv", .str "P-256")])] = .ok t := ok_of_isSome (by decide +kernel)
  obtain ⟨j, s0, hdr, ct, tag, -, h⟩ := C146_no_iv (E := toyEnv) toyCipher_lawful (alg := "ECDH-ES+A192KW") rfl (by decide)
    rfl .c128 exEcObj_distinct (by intro v hv; cases hv) (by intro v hv; cases hv)
    (by intro p hp; rw [List.mem_singleton.mp hp]; exact ⟨by decide, trivial, trivial⟩) (by simp) rfl rfl (.inr rfl) ht
  exact ⟨t, j, ht, h⟩

end Verif
