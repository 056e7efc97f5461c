import Verif.Proofs.JweKeys
/-
C57: JWE with AES key wrap under a shared key.
-/

namespace Verif
open Spec

theorem Spec.RealValues.key_kid {o : Jwe} {keys l : List Key} {kid : Option PyVal} (h : RealValues o keys kid)
    (he : EffKeys o.toJwx keys l) {k : Key} (hk : k ∈ l) : Distinct k.kid := by
  rcases he with ⟨-, rfl⟩ | ⟨-, k', hj, rfl⟩
  · exact h.kids k hk
  · simp only [List.mem_singleton] at hk
    subst hk
    exact h.own_kid k hj

theorem distinct_setKid {o : Jwe} {k : Key} (h : Distinct (.dict o.dict)) (hk : Distinct k.kid) :
    Distinct (.dict (o.setKid k).dict) := by
  unfold Jwe.setKid
  split
  · exact distinct_set h hk
  · exact h

theorem distinct_withKid {d : PyDict} {kid : Option PyVal} (h : Distinct (.dict d))
    (hk : ∀ v, kid = some v → Distinct v) : Distinct (.dict (withKid d kid)) := by
  unfold withKid
  split
  · exact distinct_set h (hk _ rfl)
  · exact h

theorem get?_setKid {o : Jwe} {k : Key} {n : String} (hn : n ≠ "kid") :
    PyDict.get? (o.setKid k).dict n = PyDict.get? o.dict n := by
  unfold Jwe.setKid
  split
  · simp only; rw [PyDict.get?_set, if_neg hn]
  · rfl

theorem get?_withKid {d : PyDict} {kid : Option PyVal} {n : String} (hn : n ≠ "kid") :
    PyDict.get? (withKid d kid) n = PyDict.get? d n := by
  unfold withKid
  split
  · rw [PyDict.get?_set, if_neg hn]
  · rfl

/-- The header dictionary that `jwencNew` produces. -/
def jwencArgs (args : PyDict) : Option JKey → PyDict
  | some (.other v) => PyDict.set args "jwk" v
  | _ => args

theorem jwencNew_ok {args : PyDict} {jwk : Option JKey} {j : Jwt} (h : jwencNew args jwk none = .ok j)
    (ha : ((PyDict.get? args "alg").getD .none).truthy = true) :
    j.headers = .dict (jwencArgs args jwk) := by
  unfold jwencNew at h
  simp only [Option.isSome_none, Bool.false_eq_true, if_false] at h
  split at h
  · exact jwt_init_is h ha
  · cases h
  · exact jwt_init_is h (by simp only [jwencArgs]; rw [PyDict.get?_set, if_neg (by decide)]; exact ha)

theorem get?_jwencArgs {args : PyDict} {jwk : Option JKey} {n : String} (hn : n ≠ "jwk") :
    PyDict.get? (jwencArgs args jwk) n = PyDict.get? args n := by
  unfold jwencArgs
  split
  · rw [PyDict.get?_set, if_neg hn]
  · rfl

theorem distinct_jwencArgs {args : PyDict} {jwk : Option JKey} (h : Distinct (.dict args))
    (hj : ∀ v, jwk = some (.other v) → Distinct v) : Distinct (.dict (jwencArgs args jwk)) := by
  unfold jwencArgs
  split
  · exact distinct_set h (hj _ rfl)
  · exact h

theorem ne_nil_of_get? {d : PyDict} {n : String} {v : PyVal} (h : PyDict.get? d n = some v) : d ≠ [] := by
  rintro rfl; simp [PyDict.get?] at h

theorem generate_ok {rnd : JweRnd} (hr : RndLengths rnd) {enc : PyVal} {cek iv cek' iv' : Bytes}
    (h : generateKeyAndIv rnd enc cek iv = .ok (cek', iv')) :
    cek' ≠ [] ∧ iv' ≠ [] ∧ (cek' = cek ∨ (cek = [] ∧ (cek'.length ∈ [16, 24, 32, 48, 64]))) := by
  unfold generateKeyAndIv at h
  split at h
  · rename_i hc
    cases h
    exact ⟨hc.1, hc.2, .inl rfl⟩
  · split at h
    · split at h
      · rename_i s _ kl il hs
        cases h
        have hkl : kl ∈ [16, 24, 32, 48, 64] ∧ il ∈ [12, 16] := by
          have hmem : (s, kl, il) ∈ encAlgLen := by
            rw [List.lookup_eq_some_iff] at hs
            obtain ⟨l1, l2, hl, -⟩ := hs
            rw [hl]; simp
          simp only [encAlgLen, List.mem_cons, Prod.mk.injEq, List.not_mem_nil, or_false] at hmem
          rcases hmem with ⟨-, rfl, rfl⟩ | ⟨-, rfl, rfl⟩ | ⟨-, rfl, rfl⟩ | ⟨-, rfl, rfl⟩ |
            ⟨-, rfl, rfl⟩ | ⟨-, rfl, rfl⟩ <;> simp
        have h1 : rnd.key kl ≠ [] := by
          intro h0
          have := hr.1 kl
          rw [h0] at this
          simp only [List.length_nil] at this
          rw [← this] at hkl
          simp at hkl
        have h2 : rnd.iv il ≠ [] := by
          intro h0
          have := hr.2 il
          rw [h0] at this
          simp only [List.length_nil] at this
          rw [← this] at hkl
          simp at hkl
        refine ⟨?_, ?_, ?_⟩
        · split
          · assumption
          · exact h1
        · split
          · assumption
          · exact h2
        · by_cases hc : cek = []
          · right
            refine ⟨hc, ?_⟩
            rw [if_neg (by simpa using hc), hr.1]
            exact hkl.1
          · left
            rw [if_pos hc]
      · cases h
    · cases h
    · cases h
    · cases h

theorem aesKeyOk_of_wrap {C : BlockCipher} {kek k w : Bytes} {iv : Nat}
    (h : aesWrapKey C kek k iv = .ok w) : aesKeyOk kek = true := by
  unfold aesWrapKey at h
  simp only [Bind.bind] at h
  obtain ⟨u, hu, -⟩ := bind_ok_iff.mp h
  unfold aesNew at hu
  by_contra hc
  simp only [hc] at hu
  cases hu

/-- What `JWE_SYM.encrypt` puts into the token. -/
theorem symEncrypt_ok {E : Env} {o : Jwe} {rnd : JweRnd} {ka : KeyArg} {cek iv : Bytes}
    {kid : Option PyVal} {t : String} {alg : String}
    (halg : PyDict.get? o.dict "alg" = some (.str alg)) (hne : alg ≠ "")
    (hd : Distinct (.dict o.dict)) (hj : ∀ v, o.jwk = some (.other v) → Distinct v)
    (hk : ∀ v, kid = some v → Distinct v) (h : o.symEncrypt E rnd ka cek iv kid = .ok t) :
    ∃ kek enc cek' iv' jek m bh h' ct tag, symKek ka = .ok kek ∧
      PyDict.get? o.dict "enc" = some enc ∧ generateKeyAndIv rnd enc cek iv = .ok (cek', iv') ∧
      aesWrapKey E.C kek cek' = .ok jek ∧ o.msg = .str m ∧
      JweParts (utf8Encode t) bh (.dict h') jek iv' ct tag ∧
      b2sConvD (jwencArgs (withKid o.dict kid) o.jwk) = .ok h' ∧
      encSetup E rnd enc (.bytes (utf8Encode m)) bh cek' iv' = .ok (ct, tag) := by
  unfold Jwe.symEncrypt at h
  simp only [Bind.bind] at h
  obtain ⟨jwe, hjwe, h1⟩ := bind_ok_iff.mp h
  obtain ⟨enc, henc, h2⟩ := bind_ok_iff.mp h1
  obtain ⟨⟨cek', iv'⟩, hgen, h3⟩ := bind_ok_iff.mp h2
  obtain ⟨kek, hkek, h4⟩ := bind_ok_iff.mp h3
  obtain ⟨jek, hjek, h5⟩ := bind_ok_iff.mp h4
  obtain ⟨m, hm, h6⟩ := bind_ok_iff.mp h5
  obtain ⟨hdr, hhdr, h7⟩ := bind_ok_iff.mp h6
  obtain ⟨⟨ct, tag⟩, hes, h8⟩ := bind_ok_iff.mp h7
  have ha : PyDict.get? (withKid o.dict kid) "alg" = some (.str alg) := by
    rw [get?_withKid (by decide), halg]
  have hhd := jwencNew_ok hjwe (by rw [ha]; simp [PyVal.truthy, hne])
  have henc' : PyDict.get? o.dict "enc" = some enc := by
    unfold PyVal.getItem at henc
    simp only [get?_withKid (show "enc" ≠ "kid" by decide)] at henc
    split at henc
    · rename_i hx; cases henc; exact hx
    · cases henc
  have hne' : jwencArgs (withKid o.dict kid) o.jwk ≠ [] :=
    ne_nil_of_get? (n := "alg") (by rw [get?_jwencArgs (by decide)]; exact ha)
  obtain ⟨bh, h', e1, e2, e3⟩ := pack_jweParts hhd hne'
    (distinct_jwencArgs (distinct_withKid hd hk) hj) (.inr rfl) h8
  have : hdr = bh := by
    unfold Jwt.b64EncodeHeader at hhdr
    rw [hhd, e1] at hhdr
    cases hhdr; rfl
  subst this
  obtain ⟨s, hs, rfl⟩ : ∃ s, o.msg = .str s ∧ m = utf8Encode s := by
    unfold strEncode at hm
    split at hm
    · cases hm; exact ⟨_, by assumption, rfl⟩
    · cases hm
  exact ⟨kek, enc, cek', iv', jek, s, hdr, h', ct, tag, hkek, henc', hgen, hjek, hs, e3, e2, hes⟩

theorem enc_is_str {enc : PyVal} (h : isGcmEnc enc = true ∨ isCbcEnc enc = true) :
    ∃ s, enc = .str s ∧ s ∈ jweSupportedEnc := by
  rcases h with h | h <;> obtain ⟨s, rfl, hs⟩ := strIn_str h <;> refine ⟨s, rfl, ?_⟩ <;>
    simp only [List.mem_cons, List.not_mem_nil, or_false] at hs <;> rcases hs with rfl | rfl | rfl <;>
    decide

/-- Content decryption of the parts of a token. -/
theorem symDecrypt_parts {E : Env} {j : Jwt} {s0 ek iv ct tag hb : Bytes} {h' : PyDict} {enc : PyVal}
    (hj : j = Jwt.mk (.dict h') [s0, b64e ek, b64e iv, b64e ct, b64e tag] [hb, ek, iv, ct, tag])
    (henc : PyDict.get? h' "enc" = some enc) (kek : Bytes) (hk : kek ≠ []) :
    symDecrypt E j (some (.obj (.val (.bytes kek)))) [] =
      (aesUnwrapKey E.C kek ek).bind fun cek => jweDecrypt E enc cek ct s0 iv tag := by
  subst hj
  have ht : keyTrue (some (.obj (.val (.bytes kek)))) = true := by
    simp [keyTrue, KObj.truthy, PyVal.truthy, hk]
  unfold symDecrypt
  simp [ht, Jwt.partAt, symKek, Bind.bind, Except.bind, PyVal.getItem, henc, Jwt.b64ProtectedHeader]

/-- Encryption under a shared key, undone by any key object that gives the same key-encryption key. -/
theorem wrap_roundtrip {E : Env} (hC : E.C.Lawful) (hH : E.H.Lawful) {o : Jwe} {rnd : JweRnd}
    (hr : RndLengths rnd) {keys : List Key} {cek iv : Bytes} {kid : Option PyVal} {t : String}
    {alg : String} {n : Nat} (halg : PyDict.get? o.dict "alg" = some (.str alg))
    (hm : MgmtName alg (.wrap n)) (hv : RealValues o keys kid)
    (hcek : cek.length % 8 = 0 ∧ cek.length < 2 ^ 61)
    (h : (o.encrypt E rnd keys cek iv kid).1 = .ok t) :
    ∃ l wk k m, EffKeys o.toJwx keys l ∧ SignKid o.toJwx wk ∧ FirstPicked (.wrap n) alg wk l k ∧
      o.msg = .str m ∧
      ∀ (o2 : Jwe) rnd2 keys2 l2 wk2 k2,
        k2.encryptionKey E (.str alg) false = k.encryptionKey E (.str alg) true →
        EffKeys o2.toJwx keys2 l2 → SignKid o2.toJwx wk2 → FirstPicked (.wrap n) alg wk2 l2 k2 →
        (o2.decrypt E rnd2 (utf8Encode t) keys2).1 = .ok (utf8Encode m) := by
  obtain ⟨l, wk, k, c, heff, hsk, hf, hw⟩ := jwe_encrypt_ok halg hm h
  obtain ⟨hne, hnn, -⟩ := mgmt_keytype hm
  unfold Jwe.encryptWith at hw
  rw [mgmt_kind hm] at hw
  simp only [Bind.bind, Except.bind] at hw
  obtain ⟨ka, hka, hw1⟩ := bind_ok_iff.mp hw
  obtain ⟨t', ht', hw2⟩ := bind_ok_iff.mp hw1
  cases hw2
  have hkl : k ∈ l := by obtain ⟨pre, post, rfl, -⟩ := hf; simp
  have hsd : Distinct (.dict o.symEncrypter.dict) := distinct_initFold hv.dict _ _ distinct_nil
  have hsa : PyDict.get? o.symEncrypter.dict "alg" = some (.str alg) := get?_initFold_alg _ _ halg _
  have hjk : (o.symEncrypter.setKid k).jwk = o.jwk := by
    unfold Jwe.setKid; split <;> rfl
  have hmsg : (o.symEncrypter.setKid k).msg = o.msg := by
    unfold Jwe.setKid; split <;> rfl
  obtain ⟨kek, enc, cek', iv', jek, m, bh, h', ct, tag, hkek, henc, hgen, hjek, hmm, hparts, hh', hes⟩ :=
    symEncrypt_ok (by rw [get?_setKid (by decide)]; exact hsa) hne
      (distinct_setKid hsd (hv.key_kid heff hkl)) (by rw [hjk]; exact hv.jwk) hv.kid ht'
  refine ⟨l, wk, k, m, heff, hsk, hf, by rw [← hmsg]; exact hmm, ?_⟩
  intro o2 rnd2 keys2 l2 wk2 k2 hsame heff2 hsk2 hf2
  obtain ⟨hc1, hc2, hc3⟩ := generate_ok hr hgen
  obtain ⟨mb, hmb, hfam, hdec⟩ := encSetup_roundtrip hC hH hc1 hc2 hes
  cases hmb
  obtain ⟨encs, rfl, hencs⟩ := enc_is_str hfam
  -- the header as it comes back
  have hA : PyDict.get? h' "alg" = some (.str alg) := by
    obtain ⟨w, hw, hw'⟩ := b2sConvD_get? (name := "alg") hh' (.str alg) (by
      rw [get?_jwencArgs (by decide), get?_withKid (by decide), get?_setKid (by decide)]
      exact hsa)
    cases hw; exact hw'
  have hE : PyDict.get? h' "enc" = some (.str encs) := by
    obtain ⟨w, hw, hw'⟩ := b2sConvD_get? (name := "enc") hh' (.str encs) (by
      rw [get?_jwencArgs (by decide), get?_withKid (by decide)]
      exact henc)
    cases hw; exact hw'
  obtain ⟨hb, hun⟩ := jweParts_unpack hparts
  obtain ⟨rest, hd1, hd2⟩ := decrypt_single (E := E) (rnd := rnd2) hun rfl hA hm heff2 hsk2 hf2 []
  rw [hd2, hd1]
  -- the key
  have hka2 : k2.encryptionKey E (.str alg) false = .ok ka := by
    rw [hsame]
    exact hka
  have hkb : ka = .obj (.val (.bytes kek)) := by
    unfold symKek at hkek
    split at hkek
    · cases hkek; rfl
    · cases hkek
  subst hkb
  have hok := aesKeyOk_of_wrap hjek
  have hkne : kek ≠ [] := by
    rintro rfl; cases hok
  have hlen : cek'.length % 8 = 0 ∧ cek'.length < 2 ^ 61 := by
    rcases hc3 with rfl | ⟨-, hl⟩
    · exact hcek
    · simp only [List.mem_cons, List.not_mem_nil, or_false] at hl
      rcases hl with hl | hl | hl | hl | hl <;> rw [hl] <;> norm_num
  obtain ⟨w, e1, -, e2⟩ := C35_roundtrip E.C hC kek cek' 0xa6a6a6a6a6a6a6a6 hok (by norm_num) hlen.1 hlen.2
  have hwj : w = jek := by
    have : aesWrapKey E.C kek cek' = .ok w := e1
    rw [hjek] at this; cases this; rfl
  subst hwj
  simp only [decryptTry, if_true, decryptLoop, hka2, decryptBy]
  rw [symDecrypt_parts rfl hE kek hkne]
  have e2 : aesUnwrapKey E.C kek w = .ok cek' := e2
  simp only [e2, Except.bind, hdec, Except.map]

/-- **C57.** What `JWE.encrypt` makes with a shared key is decrypted to the same message with that
key: whatever the other keys, the object's parameters, the random values, and the supplied content
key (of full blocks) and iv. -/
theorem C57_roundtrip {E : Env} (hC : E.C.Lawful) (hH : E.H.Lawful) {o : Jwe} {rnd : JweRnd}
    (hr : RndLengths rnd) {keys : List Key} {cek iv : Bytes} {kid : Option PyVal} {t : String}
    {alg : String} {n : Nat} (halg : PyDict.get? o.dict "alg" = some (.str alg))
    (hm : MgmtName alg (.wrap n)) (hv : RealValues o keys kid)
    (hcek : cek.length % 8 = 0 ∧ cek.length < 2 ^ 61)
    (h : (o.encrypt E rnd keys cek iv kid).1 = .ok t) :
    ∃ l wk k m, EffKeys o.toJwx keys l ∧ SignKid o.toJwx wk ∧ FirstPicked (.wrap n) alg wk l k ∧
      o.msg = .str m ∧
      ∀ (o2 : Jwe) rnd2 keys2 l2 wk2 k2, (∃ kk, k.mat = .sym kk) → SameMaterial k k2 →
        EffKeys o2.toJwx keys2 l2 → SignKid o2.toJwx wk2 → FirstPicked (.wrap n) alg wk2 l2 k2 →
        (o2.decrypt E rnd2 (utf8Encode t) keys2).1 = .ok (utf8Encode m) := by
  obtain ⟨l, wk, k, m, h1, h2, h3, h4, h5⟩ := wrap_roundtrip hC hH hr halg hm hv hcek h
  refine ⟨l, wk, k, m, h1, h2, h3, h4, fun o2 rnd2 keys2 l2 wk2 k2 ⟨kk, hkk⟩ hsame => h5 o2 rnd2 keys2 l2 wk2 k2 ?_⟩
  unfold Key.encryptionKey
  rw [hsame.2, hsame.1, hkk]

/-! ### Encryption does succeed -/

theorem encName_lookup {enc : String} {n i : Nat} (h : EncName enc n i) :
    List.lookup enc encAlgLen = some (n, i) ∧
    ((isGcmEnc (.str enc) = true ∧ n ≤ 32 ∧ i = 12) ∨
     (isGcmEnc (.str enc) = false ∧ isCbcEnc (.str enc) = true ∧ i = 16 ∧
       ∃ s a, (n, s, a) ∈ cbcHmacParams)) := by
  cases h <;> refine ⟨by decide, ?_⟩
  · exact .inl ⟨by decide, by omega, rfl⟩
  · exact .inl ⟨by decide, by omega, rfl⟩
  · exact .inl ⟨by decide, by omega, rfl⟩
  · exact .inr ⟨by decide, by decide, rfl, 16, .sha256, by decide⟩
  · exact .inr ⟨by decide, by decide, rfl, 24, .sha384, by decide⟩
  · exact .inr ⟨by decide, by decide, rfl, 32, .sha512, by decide⟩

/-- Content encryption with key and iv of the right sizes succeeds. -/
theorem encSetup_total {E : Env} (hC : E.C.Lawful) (hH : E.H.Lawful) {rnd : JweRnd} {enc : String} {n i : Nat}
    (he : EncName enc n i) {m aad key iv : Bytes} (hk : key.length = n) (hi : iv.length = i)
    (hl : m.length ≤ 16 * 2 ^ 32) (ha : aad.length < 2 ^ 61) :
    ∃ ct tag, encSetup E rnd (.str enc) (.bytes m) aad key iv = .ok (ct, tag) := by
  obtain ⟨-, hcase⟩ := encName_lookup he
  have hn0 : n ≠ 0 := by cases he <;> decide
  have hi0 : i ≠ 0 := by cases he <;> decide
  have hg : generateKeyAndIv rnd (.str enc) key iv = .ok (key, iv) := by
    unfold generateKeyAndIv
    rw [if_pos]
    constructor
    · rintro rfl; exact hn0 (by simpa using hk.symm)
    · rintro rfl; exact hi0 (by simpa using hi.symm)
  unfold encSetup
  simp only [hg, Bind.bind, Except.bind, wantBytes]
  rcases hcase with ⟨hgcm, hn, rfl⟩ | ⟨hgcm, hcbc, rfl, s, a, hp⟩
  · simp only [hgcm, if_true]
    have hlt : bytesToNat key < 2 ^ 256 := by
      have h1 := bytesToNat_lt key
      have h2 : 256 ^ key.length ≤ 256 ^ 32 := Nat.pow_le_pow_right (by norm_num) (by omega)
      calc _ < 256 ^ key.length := h1
        _ ≤ 256 ^ 32 := h2
        _ = 2 ^ 256 := by norm_num
    obtain ⟨g, hg1⟩ := (C47_accepts hC key).1 hlt
    obtain ⟨hr, hp⟩ := gcm_new_reachable hg1
    have hiv : bytesToNat iv < 2 ^ 96 := by
      have h1 := bytesToNat_lt iv
      rw [hi] at h1
      exact lt_of_lt_of_eq h1 (by norm_num)
    obtain ⟨ct, tag, e, -⟩ := C44_encrypt hC hr _ hiv (by rw [hp]; simp) m aad hl
    exact ⟨ct, longToBytes tag, by simp only [hg1, e]⟩
  · simp only [hgcm, hcbc, if_true, Bool.false_eq_true, if_false]
    obtain ⟨ct, tag, e, -⟩ := C39_roundtrip E.C E.H hC hH key iv aad m n s a hp hk hi ha
    exact ⟨ct, tag, e⟩

/-- The encoded header of a token with only `alg` and `enc`. -/
theorem short_header {alg : String} {m : KeyMgmt} (hm : MgmtName alg m) {enc : String} {n i : Nat}
    (he : EncName enc n i) :
    ∃ bh, b64encodeItem (.dict [("alg", .str alg), ("enc", .str enc)]) = .ok bh ∧ bh.length < 2 ^ 61 := by
  have key : (match b64encodeItem (.dict [("alg", .str alg), ("enc", .str enc)]) with
      | .ok bh => decide (bh.length < 100)
      | .error _ => false) = true := by
    cases hm <;> cases he <;> decide +kernel
  split at key
  · rename_i bh hb
    exact ⟨bh, hb, lt_of_lt_of_le (of_decide_eq_true key) (by norm_num)⟩
  · cases key

theorem jwe_new_short (E : Env) (m : PyVal) (alg enc : String) :
    Jwe.new E m [("alg", .str alg), ("enc", .str enc)] =
      .ok { msg := m, dict := [("alg", .str alg), ("enc", .str enc)] } := by
  rfl

theorem pack_succeeds {j : Jwt} {h : PyDict} (hj : j.headers = .dict h) (hne : h ≠ [])
    (hjs : (PyVal.dict h).jsonable = true) {ek : PyVal} {ekb : Bytes} (hek : MsgBytes ek ekb) (iv ct tag : Bytes) :
    ∃ s, j.pack [ek, .bytes iv, .bytes ct, .bytes tag] = .ok s := by
  obtain ⟨s, _, _, h, -⟩ := pack_text j h hj hne hjs [ek, .bytes iv, .bytes ct, .bytes tag] (by simp) (by
    intro p hp
    simp only [List.mem_cons, List.not_mem_nil, or_false] at hp
    rcases hp with rfl | rfl | rfl | rfl
    · rcases hek with ⟨s, rfl, -⟩ | rfl <;> trivial
    all_goals trivial)
  exact ⟨s, h⟩

/-- A shared key: a `SYMKey` object with a non-empty secret. -/
def Spec.SharedKey (k : Key) (secret : Bytes) : Prop :=
  (∃ kk, k.mat = .sym kk) ∧ k.key = .val (.bytes secret) ∧ secret ≠ []

theorem shared_encryptionKey {E : Env} (hH : E.H.Lawful) {k : Key} {secret : Bytes}
    (hk : SharedKey k secret) {alg : String} {n : Nat} (hm : MgmtName alg (.wrap n)) (b : Bool) :
    k.encryptionKey E (.str alg) b = .ok (.obj (.val (.bytes ((E.H.hash .sha256 secret).take n)))) ∧
      aesKeyOk ((E.H.hash .sha256 secret).take n) = true := by
  obtain ⟨⟨kk, hkk⟩, hkey, hne⟩ := hk
  have ht : k.key.truthy = true := by rw [hkey]; simp [KObj.truthy, PyVal.truthy, hne]
  have hn : alg2keylen (.str alg) = some n ∧ (n = 16 ∨ n = 24 ∨ n = 32) := by
    cases hm
    · exact ⟨by decide, .inl rfl⟩
    · exact ⟨by decide, .inr (.inl rfl)⟩
    · exact ⟨by decide, .inr (.inr rfl)⟩
  constructor
  · unfold Key.encryptionKey symEncryptionKey
    rw [hkk, hkey]
    rw [hkey] at ht
    have h32 : n ≤ 32 := by omega
    simp only [ht, if_true, Bind.bind, Except.bind, hn.1, keyBytes, h32, Except.map]
  · unfold aesKeyOk
    rw [List.length_take, hH.hash_length]
    rcases hn.2 with rfl | rfl | rfl <;> decide

theorem distinct_of_falsy {v : PyVal} (h : v.truthy = false) : Distinct v := by
  cases v with
  | list l => cases l <;> simp_all [PyVal.truthy, Distinct, DistinctL]
  | dict l => cases l <;> simp_all [PyVal.truthy, Distinct, DistinctD]
  | _ => trivial

/-- **C57.** The complete scenario: with any shared key that carries no conflicting label, any of the
three algorithms and any of the six content encryptions, every text is encrypted, and the token
decrypts to it. -/
theorem C57_total {E : Env} (hC : E.C.Lawful) (hH : E.H.Lawful) {rnd : JweRnd} (hr : RndLengths rnd)
    {alg enc : String} {n kl il : Nat} (hm : MgmtName alg (.wrap n)) (he : EncName enc kl il)
    (m : String) (hl : (utf8Encode m).length ≤ 16 * 2 ^ 32) {k : Key} {secret : Bytes}
    (hk : SharedKey k secret) (hp : EncPicked (.wrap n) alg .none k) (hkid : k.kid.truthy = false) :
    ∃ o t, Jwe.new E (.str m) [("alg", .str alg), ("enc", .str enc)] = .ok o ∧
      (o.encrypt E rnd [k]).1 = .ok t ∧
      ∀ rnd2, (Jwe.decrypt E {} rnd2 (utf8Encode t) [k]).1 = .ok (utf8Encode m) := by
  refine ⟨{ msg := .str m, dict := [("alg", .str alg), ("enc", .str enc)] }, ?_⟩
  suffices h : ∃ t, (Jwe.encrypt E { msg := .str m, dict := [("alg", .str alg), ("enc", .str enc)] }
      rnd [k]).1 = .ok t by
    obtain ⟨t, ht⟩ := h
    refine ⟨t, jwe_new_short E _ alg enc, ht, fun rnd2 => ?_⟩
    have hfp : FirstPicked (.wrap n) alg .none [k] k := ⟨[], [], rfl, hp, by simp⟩
    obtain ⟨l, wk, k', m', h1, h2, h3, h4, h5⟩ := C57_roundtrip hC hH hr (alg := alg) (n := n)
      (o := { msg := .str m, dict := [("alg", .str alg), ("enc", .str enc)] }) (keys := [k])
      (cek := []) (iv := []) (kid := none) rfl hm (by
        constructor
        · intro n v hv
          have : v = .str alg ∨ v = .str enc := by
            simp only [PyDict.get?, List.lookup_cons, List.lookup_nil] at hv
            split at hv
            · cases hv; simp
            · split at hv
              · cases hv; simp
              · cases hv
          rcases this with rfl | rfl <;> trivial
        · intro v hv; cases hv
        · intro x hx
          rw [List.mem_singleton] at hx
          subst hx
          exact distinct_of_falsy hkid
        · intro v hv; cases hv
        · intro v hv; cases hv) (by simp) ht
    cases h4
    have hk' : k' = k := by
      rcases h1 with ⟨-, rfl⟩ | ⟨hx, -⟩
      · obtain ⟨pre, post, hp', -⟩ := h3
        rcases pre with _ | ⟨a, pre⟩
        · simp at hp'; exact hp'.1.symm
        · simp at hp'
      · cases hx
    subst hk'
    exact h5 {} rnd2 [k'] [k'] .none k' hk.1 ⟨rfl, rfl⟩ (.inl ⟨by simp, rfl⟩)
      (.inr ⟨rfl, .inl ⟨rfl, rfl⟩⟩) hfp
  obtain ⟨hke, hkok⟩ := shared_encryptionKey hH hk hm true
  generalize hkek : (E.H.hash .sha256 secret).take n = kek at hke hkok
  have hfp : FirstPicked (.wrap n) alg .none [k] k := ⟨[], [], rfl, hp, by simp⟩
  rw [encrypt_of_first (l := [k]) (k := k) (wk := .none) rfl hm (.inl ⟨by simp, rfl⟩)
    (.inr ⟨rfl, .inl ⟨rfl, rfl⟩⟩) hfp]
  obtain ⟨bh, hbh, hbl⟩ := short_header hm he
  obtain ⟨hlk, -⟩ := encName_lookup he
  have hgen : generateKeyAndIv rnd (.str enc) [] [] = .ok (rnd.key kl, rnd.iv il) := by
    unfold generateKeyAndIv
    simp [hlk]
  have hkl8 : kl % 8 = 0 ∧ kl < 2 ^ 61 := by cases he <;> norm_num
  obtain ⟨w, hw, -⟩ := C35_roundtrip E.C hC kek (rnd.key kl) 0xa6a6a6a6a6a6a6a6 hkok (by norm_num)
    (by rw [hr.1]; exact hkl8.1) (by rw [hr.1]; exact hkl8.2)
  have hw : aesWrapKey E.C kek (rnd.key kl) = .ok w := hw
  obtain ⟨ct, tag, hes⟩ := encSetup_total (E := E) (rnd := rnd) hC hH he (m := utf8Encode m) (aad := bh)
    (hr.1 kl) (hr.2 il) hl hbl
  have hne : alg ≠ "" := (mgmt_keytype hm).1
  have hinit : Jwt.init [("alg", .str alg), ("enc", .str enc)] =
      .ok { headers := .dict [("alg", .str alg), ("enc", .str enc)], b64part := [bh],
            part := [(b64d bh).toOption.getD []] } := by
    obtain ⟨x, rfl⟩ := b64encodeItem_b64e hbh
    have ht : (PyVal.str alg).truthy = true := by simp [PyVal.truthy, hne]
    unfold Jwt.init
    have hself : PyDict.has [("alg", PyVal.str alg), ("enc", PyVal.str enc)] "self" = false := rfl
    rw [hself, if_neg (by decide)]
    simp only [show PyDict.get? [("alg", PyVal.str alg), ("enc", PyVal.str enc)] "alg" =
      some (.str alg) from rfl, Option.getD_some, ht, if_true, hbh, Bind.bind, Except.bind, C01_roundtrip]
    rfl
  obtain ⟨t, ht⟩ := pack_succeeds
      (j := Jwt.mk (.dict [("alg", .str alg), ("enc", .str enc)]) [bh] [(b64d bh).toOption.getD []]) rfl (by simp) (by rfl)
      (ek := .bytes w) (.inr rfl) (rnd.iv il) ct tag
  refine ⟨t, ?_⟩
  unfold Jwe.encryptWith
  rw [mgmt_kind hm]
  simp only [Bind.bind, Except.bind, hke]
  have hsetkid : (Jwe.symEncrypter { msg := .str m, dict := [("alg", .str alg), ("enc", .str enc)] }).setKid k
      = { msg := .str m, dict := [("alg", .str alg), ("enc", .str enc)] } := by
    unfold Jwe.setKid
    rw [hkid]
    rfl
  rw [hsetkid]
  unfold Jwe.symEncrypt
  simp only [withKid, jwencNew, Option.isSome_none, Bool.false_eq_true, if_false, hinit, Bind.bind,
    Except.bind, show PyVal.getItem (.dict [("alg", PyVal.str alg), ("enc", PyVal.str enc)]) "enc" =
      .ok (.str enc) from rfl, hgen, symKek, hw, strEncode, Jwt.b64EncodeHeader, hbh, hes, ht]
  rfl

/-- Randomness and a shared key for the examples. -/
def exRnd : JweRnd where
  key := fun n => List.replicate n 7
  iv := fun n => List.replicate n 9
  rsa := 5
  sentinel := fun _ => [1]
  apu := List.replicate 16 3
  apv := List.replicate 16 4
  eph := 11

theorem exRnd_lengths : RndLengths exRnd := ⟨fun n => by simp [exRnd], fun n => by simp [exRnd]⟩

@[inherit_doc exRnd]
def exShared : Key where
  kty := .str "oct"
  alg := .none
  use := .none
  kid := .none
  key := .val (.bytes (ascii "k"))
  x5c := .none
  x5t := .none
  x5u := .none
  extra := []
  hash := none
  mat := .sym .none

theorem exShared_ok : SharedKey exShared (ascii "k") := ⟨⟨_, rfl⟩, rfl, by decide⟩

theorem exShared_picked : EncPicked (.wrap 16) "A128KW" .none exShared :=
  ⟨.inl rfl, by decide, by decide, by decide⟩

example : ∃ o t, Jwe.new toyEnv (.str "hello") [("alg", .str "A128KW"), ("enc", .str "A256GCM")] = .ok o ∧
    (o.encrypt toyEnv exRnd [exShared]).1 = .ok t ∧
    ∀ rnd2, (Jwe.decrypt toyEnv {} rnd2 (utf8Encode t) [exShared]).1 = .ok (utf8Encode "hello") :=
  C57_total toyCipher_lawful toyHashes_lawful exRnd_lengths .a128 .g256 "hello" (by decide +kernel)
    exShared_ok exShared_picked (by decide)

end Verif
