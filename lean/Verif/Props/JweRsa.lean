import Verif.Props.JweSym
/-
C58: JWE with RSA key encryption.
-/

namespace Verif
open Spec

/-! ### The header -/

theorem trueParams_keys (d : PyDict) (l : List String) :
    ((trueParams d l).map Prod.fst).Sublist l := by
  induction l with
  | nil => exact .slnil
  | cons a l ih =>
    unfold trueParams at ih ⊢
    rw [List.filterMap_cons]
    rcases h : PyDict.get? d a with _ | v
    · exact .cons _ ih
    · simp only
      by_cases ht : v.truthy = true
      · simp only [ht, if_true, List.map_cons]
        exact .cons_cons _ ih
      · simp only [ht]
        exact .cons _ ih

theorem get?_trueParams (d : PyDict) (n : String) : ∀ l : List String, n ∈ l →
    PyDict.get? (trueParams d l) n = (PyDict.get? d n).filter PyVal.truthy
  | [], h => by cases h
  | a :: l, h => by
    have hnot : ∀ {v : PyVal}, PyDict.get? d a = some v → v.truthy ≠ true → ∀ l',
        PyDict.get? (trueParams d l') a = none := by
      intro v hv ht l'
      rw [get?_none_iff]
      intro hmem
      simp only [trueParams, List.mem_map, List.mem_filterMap] at hmem
      obtain ⟨p, ⟨b, -, hb⟩, hp⟩ := hmem
      split at hb
      · split at hb
        · cases hb
          simp only at hp
          subst hp
          rename_i h1 h2
          rw [hv] at h1
          cases h1
          exact ht h2
        · cases hb
      · cases hb
    have hnone : PyDict.get? d a = none → ∀ l', PyDict.get? (trueParams d l') a = none := by
      intro hv l'
      rw [get?_none_iff]
      intro hmem
      simp only [trueParams, List.mem_map, List.mem_filterMap] at hmem
      obtain ⟨p, ⟨b, -, hb⟩, hp⟩ := hmem
      split at hb
      · split at hb
        · cases hb
          simp only at hp
          subst hp
          rename_i h1 _
          rw [hv] at h1
          cases h1
        · cases hb
      · cases hb
    by_cases hna : n = a
    · subst hna
      rcases hv : PyDict.get? d n with _ | v
      · rw [hnone hv]; rfl
      · by_cases ht : v.truthy = true
        · unfold trueParams
          rw [List.filterMap_cons, hv]
          simp [ht, PyDict.get?, Option.filter]
        · rw [hnot hv ht]
          simp [Option.filter, ht]
    · have hn : n ∈ l := (List.mem_cons.mp h).resolve_left hna
      have ih := get?_trueParams d n l hn
      unfold trueParams at ih ⊢
      rw [List.filterMap_cons]
      split
      · exact ih
      · rename_i p hp
        split at hp
        · split at hp
          · cases hp
            unfold PyDict.get? at ih ⊢
            rw [List.lookup_cons]
            have : (n == a) = false := by simpa using hna
            simp only [this, ih]
          · cases hp
        · cases hp

theorem jwkHeader_keys {jwk : Option JKey} {d : PyDict} (h : jwkHeader jwk = .ok d) :
    (d.map Prod.fst).Sublist ["jwk"] ∧ ∀ p ∈ d, ∃ k, jwk = some (.key k) ∧ k.serializeDflt = .ok p.2 := by
  unfold jwkHeader at h
  split at h
  · cases h; simp
  · rename_i k
    rcases hs : k.serializeDflt with e | v
    · rw [hs] at h; cases h
    · rw [hs] at h; cases h
      simp
      exact hs
  · cases h

theorem headers_ok {o : Jwe} {h : PyDict} (hh : o.headers = .ok h) (n : String) (hn : n ∈ jweArgs1) :
    PyDict.get? h n = (PyDict.get? o.dict n).filter PyVal.truthy := by
  unfold Jwe.headers at hh
  simp only [Bind.bind] at hh
  obtain ⟨jw, h1, hh2⟩ := bind_ok_iff.mp hh
  obtain ⟨_, -, hh3⟩ := bind_ok_iff.mp hh2
  cases hh3
  unfold PyDict.get?
  rw [List.append_assoc, List.lookup_append]
  have h2 : List.lookup n (jw ++ trueParams o.dict jweArgs2) = none := by
    refine (get?_none_iff (d := jw ++ trueParams o.dict jweArgs2) (n := n)).mpr ?_
    intro hm
    have hsub : ((jw ++ trueParams o.dict jweArgs2).map Prod.fst).Sublist ("jwk" :: jweArgs2) := by
      rw [List.map_append]
      exact (jwkHeader_keys h1).1.append (trueParams_keys _ _)
    have hm' := hsub.subset hm
    revert hn hm'
    have : ∀ n ∈ jweArgs1, n ∉ "jwk" :: jweArgs2 := by decide
    exact fun a b => this n a b
  rw [h2, Option.or_none]
  exact get?_trueParams _ _ _ hn

theorem distinct_headers {o : Jwe} {h : PyDict} (hh : o.headers = .ok h) (hd : Distinct (.dict o.dict))
    (hj : ∀ k v, o.jwk = some (.key k) → k.serializeDflt = .ok v → Distinct v) : Distinct (.dict h) := by
  unfold Jwe.headers at hh
  simp only [Bind.bind] at hh
  obtain ⟨jw, h1, hh2⟩ := bind_ok_iff.mp hh
  obtain ⟨_, -, hh3⟩ := bind_ok_iff.mp hh2
  cases hh3
  simp only [Distinct] at hd ⊢
  have hmem : ∀ l, ∀ p ∈ trueParams o.dict l, Distinct p.2 := by
    intro l p hp
    simp only [trueParams, List.mem_filterMap] at hp
    obtain ⟨b, -, hb⟩ := hp
    split at hb
    · split at hb
      · cases hb
        rename_i hv _
        simp only
        refine distinctD_iff.mp hd.2 (b, _) ?_
        unfold PyDict.get? at hv
        rw [List.lookup_eq_some_iff] at hv
        obtain ⟨l1, l2, hl, -⟩ := hv
        rw [hl]; simp
      · cases hb
    · cases hb
  constructor
  · have hsub : ((trueParams o.dict jweArgs1 ++ jw ++ trueParams o.dict jweArgs2).map Prod.fst).Sublist
        (jweArgs1 ++ ["jwk"] ++ jweArgs2) := by
      rw [List.map_append, List.map_append]
      exact ((trueParams_keys _ _).append (jwkHeader_keys h1).1).append (trueParams_keys _ _)
    exact hsub.nodup (by decide)
  · rw [distinctD_iff]
    intro p hp
    simp only [List.mem_append] at hp
    rcases hp with (hp | hp) | hp
    · exact hmem _ p hp
    · obtain ⟨k, hk, hs⟩ := (jwkHeader_keys h1).2 p hp
      exact hj k _ hk hs
    · exact hmem _ p hp

/-! ### Encryption -/

theorem zipMsg_ok {E : Env} {o : Jwe} {m : PyVal} (h : o.zipMsg E = .ok m) :
    (PyDict.get? o.dict "zip" = none ∧ m = asBytes o.msg) ∨
    (PyDict.get? o.dict "zip" = some (.str "DEF") ∧ ∃ b, asBytes o.msg = .bytes b ∧
      m = .bytes (E.Z.compress b)) := by
  unfold Jwe.zipMsg at h
  simp only at h
  split at h
  · cases h; exact .inl ⟨by assumption, rfl⟩
  · rename_i z hz
    split at h
    · rename_i hd
      subst hd
      rcases hw : wantBytes (asBytes o.msg) with e | b
      · rw [hw] at h; cases h
      · rw [hw] at h; cases h
        refine .inr ⟨hz, b, ?_, rfl⟩
        unfold wantBytes at hw
        split at hw
        · rename_i hb; cases hw; exact hb
        · cases hw
    · cases h

theorem asBytes_msg {v : PyVal} {b : Bytes} (h : asBytes v = .bytes b) : MsgBytes v b := by
  unfold asBytes at h
  split at h
  · cases h; exact .inl ⟨_, rfl, rfl⟩
  · exact .inr h

theorem rsaPadOf_name {alg : String} {p : RsaPad} (hm : MgmtName alg (.rsa p)) :
    rsaPadOf (.str alg) = .ok p := by
  cases hm <;> rfl

/-- What `JWE_RSA.encrypt` puts into the token, with the header it starts from. -/
theorem rsaEncrypt_form {E : Env} {wd : Bool} {o : Jwe} {rnd : JweRnd} {ka : KeyArg} {cek iv c : Bytes} {t : String}
    {alg : String} {p : RsaPad} (hm : MgmtName alg (.rsa p))
    (halg : PyDict.get? o.dict "alg" = some (.str alg))
    (hd : Distinct (.dict o.dict))
    (hj : ∀ k v, o.jwk = some (.key k) → k.serializeDflt = .ok v → Distinct v)
    (h : o.rsaEncrypt E wd rnd ka cek iv = .ok (t, c)) :
    ∃ enc iv' msg ek bh hdrs h' ct tag, PyDict.get? o.dict "enc" = some enc ∧
      generateKeyAndIv rnd enc cek iv = .ok (c, iv') ∧ o.zipMsg E = .ok msg ∧
      ((cek ≠ [] ∧ ek = []) ∨ (cek = [] ∧ rsaEncrypterEncrypt E wd rnd.rsa c ka p = .ok ek)) ∧
      JweParts (utf8Encode t) bh (.dict h') ek iv' ct tag ∧
      o.headers = .ok hdrs ∧ b2sConvD hdrs = .ok h' ∧
      encSetup E rnd enc msg bh c iv' = .ok (ct, tag) := by
  unfold Jwe.rsaEncrypt at h
  simp only [Bind.bind] at h
  obtain ⟨msg, hmsg, h1⟩ := bind_ok_iff.mp h
  obtain ⟨enc, henc, h2⟩ := bind_ok_iff.mp h1
  obtain ⟨⟨c', iv'⟩, hgen, h3⟩ := bind_ok_iff.mp h2
  obtain ⟨a, ha, h4⟩ := bind_ok_iff.mp h3
  obtain ⟨ekv, hek, h5⟩ := bind_ok_iff.mp h4
  obtain ⟨hdrs, hhdrs, h6⟩ := bind_ok_iff.mp h5
  obtain ⟨jwe, hjwe, h7⟩ := bind_ok_iff.mp h6
  obtain ⟨hdr, hhdr, h8⟩ := bind_ok_iff.mp h7
  obtain ⟨⟨ct, tag⟩, hes, h9⟩ := bind_ok_iff.mp h8
  obtain ⟨t', ht', h10⟩ := bind_ok_iff.mp h9
  cases h10
  have hne : alg ≠ "" := (mgmt_keytype hm).1
  have htr : (PyVal.str alg).truthy = true := by simp [PyVal.truthy, hne]
  obtain rfl : a = .str alg := by
    simp only [PyVal.getItem, halg] at ha
    cases ha; rfl
  have henc' : PyDict.get? o.dict "enc" = some enc := by
    simp only [PyVal.getItem] at henc
    split at henc
    · rename_i hx; cases henc; exact hx
    · cases henc
  have hha : PyDict.get? hdrs "alg" = some (.str alg) := by
    rw [headers_ok hhdrs _ (by decide), halg]
    simp [Option.filter, htr]
  have hep : o.epk = none := by
    unfold jwencNew at hjwe
    rcases hx : o.epk with _ | e
    · rfl
    · rw [hx] at hjwe; cases hjwe
  rw [hep] at hjwe
  have hhd := jwencNew_ok hjwe (by rw [hha]; exact htr)
  simp only [jwencArgs] at hhd
  obtain ⟨ekb, hekb, hcase⟩ : ∃ ekb, MsgBytes ekv ekb ∧ ((cek ≠ [] ∧ ekb = []) ∨
      (cek = [] ∧ rsaEncrypterEncrypt E wd rnd.rsa c' ka p = .ok ekb)) := by
    by_cases hc : cek ≠ []
    · rw [if_pos hc] at hek
      cases hek
      exact ⟨[], .inl ⟨"", rfl, rfl⟩, .inl ⟨hc, rfl⟩⟩
    · rw [if_neg hc] at hek
      simp only [rsaPadOf_name hm, Except.bind] at hek
      obtain ⟨b, hb, hek2⟩ := bind_ok_iff.mp hek
      cases hek2
      exact ⟨b, .inr rfl, .inr ⟨by simpa using hc, hb⟩⟩
  obtain ⟨bh, h', e1, e2, e3⟩ := pack_jweParts hhd (ne_nil_of_get? hha) (distinct_headers hhdrs hd hj) hekb ht'
  have : hdr = bh := by
    unfold Jwt.b64EncodeHeader at hhdr
    rw [hhd, e1] at hhdr
    cases hhdr; rfl
  subst this
  exact ⟨enc, iv', msg, ekb, hdr, hdrs, h', ct, tag, henc', hgen, hmsg, hcase, e3, hhdrs, e2, hes⟩

/-- What `JWE_RSA.encrypt` puts into the token. -/
theorem rsaEncrypt_ok {E : Env} {wd : Bool} {o : Jwe} {rnd : JweRnd} {ka : KeyArg} {cek iv c : Bytes} {t : String}
    {alg : String} {p : RsaPad} (hm : MgmtName alg (.rsa p))
    (halg : PyDict.get? o.dict "alg" = some (.str alg))
    (hd : Distinct (.dict o.dict))
    (hj : ∀ k v, o.jwk = some (.key k) → k.serializeDflt = .ok v → Distinct v)
    (h : o.rsaEncrypt E wd rnd ka cek iv = .ok (t, c)) :
    ∃ enc iv' msg ek bh h' ct tag, PyDict.get? o.dict "enc" = some enc ∧
      generateKeyAndIv rnd enc cek iv = .ok (c, iv') ∧ o.zipMsg E = .ok msg ∧
      ((cek ≠ [] ∧ ek = []) ∨ (cek = [] ∧ rsaEncrypterEncrypt E wd rnd.rsa c ka p = .ok ek)) ∧
      JweParts (utf8Encode t) bh (.dict h') ek iv' ct tag ∧
      PyDict.get? h' "alg" = some (.str alg) ∧
      (∀ s, s ≠ "" → enc = .str s → PyDict.get? h' "enc" = some (.str s)) ∧
      (PyDict.get? o.dict "zip" = none → PyDict.get? h' "zip" = none) ∧
      (PyDict.get? o.dict "zip" = some (.str "DEF") → PyDict.get? h' "zip" = some (.str "DEF")) ∧
      encSetup E rnd enc msg bh c iv' = .ok (ct, tag) := by
  obtain ⟨enc, iv', msg, ek, bh, hdrs, h', ct, tag, henc', hgen, hmsg, hcase, e3, hhdrs, e2, hes⟩ :=
    rsaEncrypt_form hm halg hd hj h
  have hne : alg ≠ "" := (mgmt_keytype hm).1
  have htr : (PyVal.str alg).truthy = true := by simp [PyVal.truthy, hne]
  have hha : PyDict.get? hdrs "alg" = some (.str alg) := by
    rw [headers_ok hhdrs _ (by decide), halg]
    simp [Option.filter, htr]
  refine ⟨enc, iv', msg, ek, bh, h', ct, tag, henc', hgen, hmsg, hcase, e3, ?_, ?_, ?_, ?_, hes⟩
  · obtain ⟨w, hw, hw'⟩ := b2sConvD_get? e2 (.str alg) hha
    cases hw; exact hw'
  · rintro s hs rfl
    obtain ⟨w, hw, hw'⟩ := b2sConvD_get? (name := "enc") e2 (.str s) (by
      rw [headers_ok hhdrs _ (by decide), henc']
      simp [Option.filter, PyVal.truthy, hs])
    cases hw; exact hw'
  · intro hz
    exact b2sConvD_get?_none e2 (by rw [headers_ok hhdrs _ (by decide), hz]; rfl)
  · intro hz
    obtain ⟨w, hw, hw'⟩ := b2sConvD_get? (name := "zip") e2 (.str "DEF") (by
      rw [headers_ok hhdrs _ (by decide), hz]
      simp [Option.filter, PyVal.truthy])
    cases hw; exact hw'

/-- Content decryption of the parts of a token, with the compression undone. -/
theorem rsaDecrypt_parts {E : Env} {wd : Bool} {j : Jwt} {s0 ek iv ct tag hb : Bytes} {h' : PyDict} {alg enc : String}
    (hj : j = Jwt.mk (.dict h') [s0, b64e ek, b64e iv, b64e ct, b64e tag] [hb, ek, iv, ct, tag])
    (halg : PyDict.get? h' "alg" = some (.str alg)) {p : RsaPad} (hm : MgmtName alg (.rsa p))
    (henc : PyDict.get? h' "enc" = some (.str enc)) (hs : enc ∈ jweSupportedEnc)
    (sent : Bytes) (key : Option KeyArg) (cek : Bytes) :
    rsaDecrypt E wd sent j key cek =
      (if cek ≠ [] then (.ok cek : PyM Bytes)
        else rsaEncrypterDecrypt E wd sent ek (key.getD (.obj (.val .none))) p).bind fun cek =>
      (jweDecrypt E (.str enc) cek ct s0 iv tag).bind fun m =>
        (if PyDict.get? h' "zip" = some (.str "DEF") then E.Z.decompress m else .ok m).map (·, cek) := by
  subst hj
  unfold rsaDecrypt
  have hin : strIn (.str enc) jweSupportedEnc = true := by simpa [strIn] using hs
  simp only [Jwt.partAt, Bind.bind, Except.bind, PyVal.getItem, halg, henc, rsaPadOf_name hm, hin,
    Jwt.b64ProtectedHeader, List.getElem?_cons_zero, List.getElem?_cons_succ, PyVal.contains]
  generalize (if cek ≠ [] then (.ok cek : PyM Bytes)
        else rsaEncrypterDecrypt E wd sent ek (key.getD (.obj (.val .none))) p) = r
  rcases r with e | c
  · rfl
  simp only [Bool.true_eq_false, if_false]
  generalize jweDecrypt E (.str enc) c ct s0 iv tag = q
  rcases q with e | m
  · rfl
  simp only
  by_cases hd : PyDict.get? h' "zip" = some (.str "DEF")
  · have hh : PyDict.has h' "zip" = true := by simp [PyDict.has, hd]
    rw [if_pos hd, if_pos hh, hd]
    simp only [if_true, beq_self_eq_true]
    generalize E.Z.decompress m = d
    rcases d with e | d <;> rfl
  · rw [if_neg hd]
    rcases hz : PyDict.get? h' "zip" with _ | z
    · have hh : ¬ PyDict.has h' "zip" = true := by simp [PyDict.has, hz]
      rw [if_neg hh]
      rfl
    · have h1 : (z == PyVal.str "DEF") = false := by
        rw [hz] at hd
        simpa using hd
      have hh : PyDict.has h' "zip" = true := by simp [PyDict.has, hz]
      rw [if_pos hh]
      simp only [h1, Bool.false_eq_true, if_false, Except.map]

/-- An `RSAKey` object that holds the library key `r`. -/
def Spec.HoldsRsa (k : Key) (r : RsaKey) : Prop := (∃ m, k.mat = .rsa m) ∧ k.key = .rsa r

theorem holdsRsa_key {E : Env} {k : Key} {r : RsaKey} (h : HoldsRsa k r) (alg : PyVal) (b : Bool) :
    k.encryptionKey E alg b = .ok (.obj (.rsa r)) := by
  obtain ⟨⟨m, hm⟩, hk⟩ := h
  unfold Key.encryptionKey
  rw [hm, hk]
  rfl

/-- RSA decryption undoes RSA encryption. -/
theorem rsaEncrypter_roundtrip {E : Env} (hR : E.R.Lawful) {r r2 : RsaKey} (ho : r2.Owns r) {p : RsaPad}
    {rnd : Nat} {c ek sent : Bytes} (h : rsaEncrypterEncrypt E false rnd c (.obj (.rsa r)) p = .ok ek)
    (hs : p = .pkcs1 → sent ≠ c) :
    rsaEncrypterDecrypt E false sent ek (.obj (.rsa r2)) p = .ok c := by
  unfold rsaEncrypterEncrypt at h
  unfold rsaEncrypterDecrypt
  simp only [rsaKeyArg, Bind.bind, Except.bind] at h ⊢
  cases p with
  | pkcs1 =>
    simp only [Bool.false_eq_true, if_false] at h
    have hne : ¬ c = sent := fun e => hs rfl e.symm
    simp [hR.pkcs1_enc _ _ _ _ _ ho h, rsaCheckText, hne]
  | oaep => exact hR.oaep_enc _ _ _ _ _ _ ho h
  | oaep256 => exact hR.oaep_enc _ _ _ _ _ _ ho h

/-- The plaintext of the content encryption determines the message. -/
theorem unzip_msg {E : Env} (hZ : E.Z.Lawful) {o : Jwe} {h' : PyDict} {m : Bytes}
    (h : o.zipMsg E = .ok (.bytes m))
    (h0 : PyDict.get? o.dict "zip" = none → PyDict.get? h' "zip" = none)
    (h1 : PyDict.get? o.dict "zip" = some (.str "DEF") → PyDict.get? h' "zip" = some (.str "DEF")) :
    ∃ b, MsgBytes o.msg b ∧
      (if PyDict.get? h' "zip" = some (.str "DEF") then E.Z.decompress m else .ok m) = .ok b := by
  rcases zipMsg_ok h with ⟨hz, he⟩ | ⟨hz, b, hb, he⟩
  · refine ⟨m, asBytes_msg he.symm, ?_⟩
    rw [h0 hz, if_neg (by simp)]
  · cases he
    refine ⟨b, asBytes_msg hb, ?_⟩
    rw [h1 hz, if_pos rfl, hZ]

theorem supported_ne {s : String} (h : s ∈ jweSupportedEnc) : s ≠ "" := by
  rintro rfl; revert h; decide

/-- **C58.** What `JWE.encrypt` makes with an RSA key is decrypted to the message with the private key
of the same modulus: with or without compression, whatever the iv, the other keys and the object's
parameters.  For RSA1_5 the random sentinel of decryption must not happen to be the content key. -/
theorem C58_roundtrip {E : Env} (hC : E.C.Lawful) (hH : E.H.Lawful) (hR : E.R.Lawful) (hZ : E.Z.Lawful)
    {o : Jwe} {rnd : JweRnd} (hr : RndLengths rnd) {keys : List Key} {iv : Bytes} {kid : Option PyVal}
    {t : String} {alg : String} {p : RsaPad} (halg : PyDict.get? o.dict "alg" = some (.str alg))
    (hm : MgmtName alg (.rsa p)) (hv : RealValues o keys kid)
    (hser : ∀ k v, o.jwk = some (.key k) → k.serializeDflt = .ok v → Distinct v)
    (h : (o.encrypt E rnd keys [] iv kid).1 = .ok t) :
    ∃ l wk k c m, EffKeys o.toJwx keys l ∧ SignKid o.toJwx wk ∧ FirstPicked (.rsa p) alg wk l k ∧
      PyDict.get? (o.encrypt E rnd keys [] iv kid).2.dict "cek" = some (.bytes c) ∧
      MsgBytes o.msg m ∧
      ∀ (o2 : Jwe) rnd2 keys2 l2 wk2 k2 r r2, HoldsRsa k r → HoldsRsa k2 r2 → r2.Owns r →
        EffKeys o2.toJwx keys2 l2 → SignKid o2.toJwx wk2 → FirstPicked (.rsa p) alg wk2 l2 k2 →
        (p = .pkcs1 → rnd2.sentinel 0 ≠ c) →
        (o2.decrypt E rnd2 (utf8Encode t) keys2).1 = .ok m := by
  obtain ⟨l, wk, k, cv, heff, hsk, hf, hw⟩ := jwe_encrypt_ok halg hm h
  have hst := encrypt_state halg hm heff hsk hf hw
  obtain ⟨hne, hnn, -⟩ := mgmt_keytype hm
  unfold Jwe.encryptWith at hw
  rw [mgmt_kind hm] at hw
  simp only [Bind.bind, Except.bind] at hw
  obtain ⟨ka, hka, hw1⟩ := bind_ok_iff.mp hw
  obtain ⟨⟨t', c⟩, ht', hw2⟩ := bind_ok_iff.mp hw1
  cases hw2
  have hkl : k ∈ l := by obtain ⟨pre, post, rfl, -⟩ := hf; simp
  have hsd : Distinct (.dict o.rsaEncrypter.dict) := distinct_initFold hv.dict _ _ distinct_nil
  have hsa : PyDict.get? o.rsaEncrypter.dict "alg" = some (.str alg) := get?_initFold_alg _ _ halg _
  have hjk : (o.rsaEncrypter.setKid k).jwk = o.jwk := by
    unfold Jwe.setKid; split <;> rfl
  have hmsg : (o.rsaEncrypter.setKid k).msg = o.msg := by
    unfold Jwe.setKid; split <;> rfl
  obtain ⟨enc, iv', msg, ek, bh, h', ct, tag, henc, hgen, hzip, hek, hparts, hA, hE, hz0, hz1, hes⟩ :=
    rsaEncrypt_ok hm (by rw [get?_setKid (by decide)]; exact hsa)
      (distinct_setKid hsd (hv.key_kid heff hkl)) (by rw [hjk]; exact hser) ht'
  obtain ⟨hc1, hc2, -⟩ := generate_ok hr hgen
  obtain ⟨mb, rfl, hfam, hdec⟩ := encSetup_roundtrip hC hH hc1 hc2 hes
  obtain ⟨encs, rfl, hencs⟩ := enc_is_str hfam
  obtain ⟨m, hmm, hun⟩ := unzip_msg hZ hzip hz0 hz1
  rw [hmsg] at hmm
  refine ⟨l, wk, k, c, m, heff, hsk, hf, hst, hmm, ?_⟩
  intro o2 rnd2 keys2 l2 wk2 k2 r r2 hk hk2 hown heff2 hsk2 hf2 hsent
  obtain ⟨hb, hunp⟩ := jweParts_unpack hparts
  obtain ⟨rest, hd1, hd2⟩ := decrypt_single (E := E) (rnd := rnd2) hunp rfl hA hm heff2 hsk2 hf2 []
  rw [holdsRsa_key hk] at hka
  cases hka
  have hek' := (hek.resolve_left (by simp)).2
  rw [hd2, hd1]
  simp only [decryptTry, if_true, decryptLoop, holdsRsa_key hk2, decryptBy]
  rw [rsaDecrypt_parts rfl hA hm (hE _ (supported_ne hencs) rfl) hencs]
  simp only [ne_eq, not_true_eq_false, if_false, Option.getD_some, rsaEncrypter_roundtrip hR hown hek' hsent,
    Except.bind, hdec, hun, Except.map]

/-- **C58.** With a content key given by the caller the encrypted key of the token is empty, and the
token is decrypted by giving this content key again, with any keys or none. -/
theorem C58_supplied {E : Env} (hC : E.C.Lawful) (hH : E.H.Lawful) (hZ : E.Z.Lawful)
    {o : Jwe} {rnd : JweRnd} (hr : RndLengths rnd) {keys : List Key} {cek iv : Bytes} {kid : Option PyVal}
    {t : String} {alg : String} {p : RsaPad} (halg : PyDict.get? o.dict "alg" = some (.str alg))
    (hm : MgmtName alg (.rsa p)) (hv : RealValues o keys kid)
    (hser : ∀ k v, o.jwk = some (.key k) → k.serializeDflt = .ok v → Distinct v) (hcek : cek ≠ [])
    (h : (o.encrypt E rnd keys cek iv kid).1 = .ok t) :
    ∃ m s0 hdr iv' ct tag, MsgBytes o.msg m ∧ JweParts (utf8Encode t) s0 hdr [] iv' ct tag ∧
      ∀ (o2 : Jwe) rnd2 keys2 l2 wk2, (EffKeys o2.toJwx keys2 l2 ∨ (o2 = {} ∧ keys2 = [] ∧ l2 = [])) →
        SignKid o2.toJwx wk2 → (o2.decrypt E rnd2 (utf8Encode t) keys2 .none cek).1 = .ok m := by
  obtain ⟨l, wk, k, cv, heff, hsk, hf, hw⟩ := jwe_encrypt_ok halg hm h
  obtain ⟨hne, hnn, -⟩ := mgmt_keytype hm
  unfold Jwe.encryptWith at hw
  rw [mgmt_kind hm] at hw
  simp only [Bind.bind, Except.bind] at hw
  obtain ⟨ka, hka, hw1⟩ := bind_ok_iff.mp hw
  obtain ⟨⟨t', c⟩, ht', hw2⟩ := bind_ok_iff.mp hw1
  cases hw2
  have hkl : k ∈ l := by obtain ⟨pre, post, rfl, -⟩ := hf; simp
  have hsd : Distinct (.dict o.rsaEncrypter.dict) := distinct_initFold hv.dict _ _ distinct_nil
  have hsa : PyDict.get? o.rsaEncrypter.dict "alg" = some (.str alg) := get?_initFold_alg _ _ halg _
  have hjk : (o.rsaEncrypter.setKid k).jwk = o.jwk := by
    unfold Jwe.setKid; split <;> rfl
  have hmsg : (o.rsaEncrypter.setKid k).msg = o.msg := by
    unfold Jwe.setKid; split <;> rfl
  obtain ⟨enc, iv', msg, ek, bh, h', ct, tag, henc, hgen, hzip, hek, hparts, hA, hE, hz0, hz1, hes⟩ :=
    rsaEncrypt_ok hm (by rw [get?_setKid (by decide)]; exact hsa)
      (distinct_setKid hsd (hv.key_kid heff hkl)) (by rw [hjk]; exact hser) ht'
  obtain ⟨hc1, hc2, hc3⟩ := generate_ok hr hgen
  obtain rfl : c = cek := hc3.resolve_right (fun hx => hcek hx.1)
  obtain ⟨mb, rfl, hfam, hdec⟩ := encSetup_roundtrip hC hH hc1 hc2 hes
  obtain ⟨encs, rfl, hencs⟩ := enc_is_str hfam
  obtain ⟨m, hmm, hun⟩ := unzip_msg hZ hzip hz0 hz1
  rw [hmsg] at hmm
  obtain rfl := (hek.resolve_right (fun hx => hcek hx.1)).2
  refine ⟨m, bh, _, iv', ct, tag, hmm, hparts, ?_⟩
  intro o2 rnd2 keys2 l2 wk2 heff2 hsk2
  obtain ⟨hb, hunp⟩ := jweParts_unpack hparts
  have hsrc : o2.keySource E keys2 = .ok (l2.map JKey.key) := by
    rcases heff2 with he | ⟨rfl, rfl, rfl⟩
    · exact keySource_of_eff he
    · rfl
  obtain ⟨ks, hks, -⟩ := pickKeys_jwe hm o2.toJwx (.str alg) (.inl rfl) (wantedKid_of_signKid hsk2) l2
  have hj : o2.decryptJwt E rnd2 (Jwt.mk (.dict h') [bh, b64e [], b64e iv', b64e ct, b64e tag]
      [hb, [], iv', ct, tag]) keys2 .none c = .ok (m, .bytes c) := by
    unfold Jwe.decryptJwt
    simp only [PyVal.getItem, hA, Bind.bind, Except.bind]
    rw [if_neg (by simp [none_truthy]), hsrc]
    simp only [hks]
    rw [if_neg (fun hx => hcek hx.2), mgmt_kind hm]
    simp only [decryptTry, hcek, if_false, decryptBy]
    rw [rsaDecrypt_parts rfl hA hm (hE _ (supported_ne hencs) rfl) hencs]
    simp only [ne_eq, hcek, not_false_eq_true, if_true, Except.bind, hdec, hun, Except.map]
  unfold Jwe.decrypt Jwe.tokenOf
  have hnt : utf8Encode t' ≠ [] := by
    intro h0
    rw [h0] at hunp
    simp [Jwt.unpack, splitToken, Bind.bind, Except.bind] at hunp
  rw [if_pos hnt, hunp]
  simp only [Bind.bind, Except.bind, hj]

/-! ### Encryption does succeed -/

/-- Keyword arguments: algorithms, and perhaps compression. -/
def Spec.rsaKw (alg enc : String) (zip : Bool) : PyDict :=
  [("alg", .str alg), ("enc", .str enc)] ++ if zip then [("zip", .str "DEF")] else []

theorem rsaKw_header {alg : String} {p : RsaPad} (hm : MgmtName alg (.rsa p)) {enc : String} {n i : Nat}
    (he : EncName enc n i) (z : Bool) :
    ∃ bh, b64encodeItem (.dict (rsaKw alg enc z)) = .ok bh ∧ bh.length < 2 ^ 61 := by
  have key : (match b64encodeItem (.dict (rsaKw alg enc z)) with
      | .ok bh => decide (bh.length < 100)
      | .error _ => false) = true := by
    cases hm <;> cases he <;> cases z <;> decide +kernel
  split at key
  · rename_i bh hb
    exact ⟨bh, hb, lt_of_lt_of_le (of_decide_eq_true key) (by norm_num)⟩
  · cases key

theorem rsaKw_get (alg enc : String) (z : Bool) :
    PyDict.get? (rsaKw alg enc z) "alg" = some (.str alg) ∧
    PyDict.get? (rsaKw alg enc z) "enc" = some (.str enc) ∧
    PyDict.get? (rsaKw alg enc z) "zip" = (if z then some (.str "DEF") else none) ∧
    PyDict.get? (rsaKw alg enc z) "kid" = none ∧ PyDict.has (rsaKw alg enc z) "self" = false := by
  cases z <;> exact ⟨rfl, rfl, rfl, rfl, rfl⟩

theorem rsaKw_new (E : Env) (m : PyVal) (alg enc : String) (z : Bool) :
    Jwe.new E m (rsaKw alg enc z) = .ok { msg := m, dict := rsaKw alg enc z } := by
  cases z <;> rfl

theorem rsaKw_values (alg enc : String) (z : Bool) {n : String} {v : PyVal}
    (h : PyDict.get? (rsaKw alg enc z) n = some v) : ∃ s, v = .str s := by
  cases z <;> simp only [rsaKw, Bool.false_eq_true, if_false, if_true, List.append_nil, List.cons_append,
    List.nil_append, PyDict.get?, List.lookup_cons, List.lookup_nil] at h
  · split at h
    · cases h; exact ⟨_, rfl⟩
    · split at h
      · cases h; exact ⟨_, rfl⟩
      · cases h
  · split at h
    · cases h; exact ⟨_, rfl⟩
    · split at h
      · cases h; exact ⟨_, rfl⟩
      · split at h
        · cases h; exact ⟨_, rfl⟩
        · cases h

theorem rsaKw_headers (msg : PyVal) {alg : String} {p : RsaPad} (hm : MgmtName alg (.rsa p)) {enc : String}
    {n i : Nat} (he : EncName enc n i) (z : Bool) :
    Jwe.headers { msg := msg, dict := rsaKw alg enc z } = .ok (rsaKw alg enc z) := by
  cases hm <;> cases he <;> cases z <;> rfl

theorem init_header {h : PyDict} {bh : Bytes} (hbh : b64encodeItem (.dict h) = .ok bh)
    (hself : PyDict.has h "self" = false) (ha : ((PyDict.get? h "alg").getD .none).truthy = true) :
    Jwt.init h = .ok (Jwt.mk (.dict h) [bh] [(b64d bh).toOption.getD []]) := by
  obtain ⟨x, rfl⟩ := b64encodeItem_b64e hbh
  unfold Jwt.init
  rw [hself, if_neg (by decide)]
  simp only [ha, if_true, hbh, Bind.bind, Except.bind, C01_roundtrip]
  rfl

/-- **C58.** The complete scenario: with any pair of RSA keys whose objects carry no conflicting label
and that the library finds large enough, any of the three algorithms and six content encryptions, with
or without compression, every message (text or bytes) is encrypted with the public key, and the token
decrypts to it with the private key. -/
theorem C58_total {E : Env} (hC : E.C.Lawful) (hH : E.H.Lawful) (hR : E.R.Lawful) (hZ : E.Z.Lawful)
    {rnd : JweRnd} (hr : RndLengths rnd)
    {alg enc : String} {p : RsaPad} {kl il : Nat} (hm : MgmtName alg (.rsa p)) (he : EncName enc kl il)
    (z : Bool) {msg : PyVal} {m : Bytes} (hmsg : MsgBytes msg m) (hl : m.length ≤ 16 * 2 ^ 32)
    (hlz : z = true → (E.Z.compress m).length ≤ 16 * 2 ^ 32) {k k2 : Key} {r r2 : RsaKey}
    (hk : HoldsRsa k r) (hk2 : HoldsRsa k2 r2) (hown : r2.Owns r)
    (hp : EncPicked (.rsa p) alg .none k) (hp2 : EncPicked (.rsa p) alg .none k2)
    (hkid : k.kid.truthy = false)
    (hlib : ∀ c, c.length ≤ 64 → ∃ ek, rsaEncrypterEncrypt E false rnd.rsa c (.obj (.rsa r)) p = .ok ek) :
    ∃ o t, Jwe.new E msg (rsaKw alg enc z) = .ok o ∧
      (o.encrypt E rnd [k]).1 = .ok t ∧
      ∀ rnd2, (p = .pkcs1 → rnd2.sentinel 0 ≠ rnd.key kl) →
        (Jwe.decrypt E {} rnd2 (utf8Encode t) [k2]).1 = .ok m := by
  obtain ⟨g1, g2, g3, g4, g5⟩ := rsaKw_get alg enc z
  have hfp : FirstPicked (.rsa p) alg .none [k] k := ⟨[], [], rfl, hp, by simp⟩
  have hfp2 : FirstPicked (.rsa p) alg .none [k2] k2 := ⟨[], [], rfl, hp2, by simp⟩
  obtain ⟨hlk, -⟩ := encName_lookup he
  have hgen : generateKeyAndIv rnd (.str enc) [] [] = .ok (rnd.key kl, rnd.iv il) := by
    unfold generateKeyAndIv
    simp [hlk]
  have hne : alg ≠ "" := (mgmt_keytype hm).1
  have hta : (PyVal.str alg).truthy = true := by simp [PyVal.truthy, hne]
  refine ⟨{ msg := msg, dict := rsaKw alg enc z }, ?_⟩
  suffices h : ∃ t, Jwe.encryptWith E { msg := msg, dict := rsaKw alg enc z } rnd (.str alg) k [] [] none
      = .ok (t, .bytes (rnd.key kl)) by
    obtain ⟨t, hw⟩ := h
    have ht : (Jwe.encrypt E { msg := msg, dict := rsaKw alg enc z } rnd [k]).1 = .ok t := by
      rw [encrypt_of_first (l := [k]) (k := k) (wk := .none) g1 hm (.inl ⟨by simp, rfl⟩)
        (.inr ⟨g4, .inl ⟨rfl, rfl⟩⟩) hfp, hw]
      rfl
    refine ⟨t, rsaKw_new E _ alg enc z, ht, fun rnd2 hs => ?_⟩
    obtain ⟨l, wk, k', c, m', h1, h2, h3, h4, h5, h6⟩ := C58_roundtrip hC hH hR hZ hr (alg := alg) (p := p)
      (o := { msg := msg, dict := rsaKw alg enc z }) (keys := [k]) (iv := []) (kid := none) g1 hm (by
        constructor
        · intro n v hv
          obtain ⟨s, rfl⟩ := rsaKw_values alg enc z hv
          trivial
        · intro v hv; cases hv
        · intro x hx
          rw [List.mem_singleton] at hx
          subst hx
          exact distinct_of_falsy hkid
        · intro v hv; cases hv
        · intro v hv; cases hv) (by intro k v hv; cases hv) ht
    have hk' : k' = k := by
      rcases h1 with ⟨-, rfl⟩ | ⟨hx, -⟩
      · obtain ⟨pre, post, hp', -⟩ := h3
        rcases pre with _ | ⟨a, pre⟩
        · simp at hp'; exact hp'.1.symm
        · simp at hp'
      · cases hx
    subst hk'
    have hc : c = rnd.key kl := by
      have := encrypt_state (E := E) (l := [k']) (k := k') (wk := .none) g1 hm (.inl ⟨by simp, rfl⟩)
        (.inr ⟨g4, .inl ⟨rfl, rfl⟩⟩) hfp hw
      rw [this] at h4
      cases h4; rfl
    subst hc
    have hm' : m' = m := by
      have h5 : MsgBytes msg m' := h5
      rcases h5 with ⟨s, rfl, rfl⟩ | rfl <;> rcases hmsg with ⟨s', h, rfl⟩ | h <;> cases h <;> rfl
    subst hm'
    exact h6 {} rnd2 [k2] [k2] .none k2 r r2 hk hk2 hown (.inl ⟨by simp, rfl⟩)
      (.inr ⟨rfl, .inl ⟨rfl, rfl⟩⟩) hfp2 hs
  obtain ⟨bh, hbh, hbl⟩ := rsaKw_header hm he z
  obtain ⟨ek, hek⟩ := hlib (rnd.key kl) (by rw [hr.1]; cases he <;> decide)
  have hasb : asBytes msg = .bytes m := by
    rcases hmsg with ⟨s, rfl, rfl⟩ | rfl <;> rfl
  obtain ⟨x, hx, hxl⟩ : ∃ x, Jwe.zipMsg E { msg := msg, dict := rsaKw alg enc z } = .ok (.bytes x) ∧
      x.length ≤ 16 * 2 ^ 32 := by
    unfold Jwe.zipMsg
    simp only [g3, hasb]
    cases z
    · exact ⟨m, rfl, hl⟩
    · exact ⟨E.Z.compress m, rfl, hlz rfl⟩
  obtain ⟨ct, tag, hes⟩ := encSetup_total (E := E) (rnd := rnd) hC hH he (m := x) (aad := bh)
    (hr.1 kl) (hr.2 il) hxl hbl
  have hinit := init_header hbh g5 (by rw [g1]; exact hta)
  obtain ⟨t, ht⟩ := pack_succeeds (j := Jwt.mk (.dict (rsaKw alg enc z)) [bh] [(b64d bh).toOption.getD []]) rfl
      (by simp [rsaKw]) (by cases z <;> rfl) (ek := .bytes ek) (.inr rfl) (rnd.iv il) ct tag
  refine ⟨t, ?_⟩
  unfold Jwe.encryptWith
  rw [mgmt_kind hm]
  simp only [Bind.bind, Except.bind, holdsRsa_key hk]
  have hsetkid : (Jwe.rsaEncrypter { msg := msg, dict := rsaKw alg enc z }).setKid k
      = { msg := msg, dict := rsaKw alg enc z } := by
    unfold Jwe.setKid
    rw [hkid]
    cases z <;> rfl
  rw [hsetkid]
  have hhd := rsaKw_headers msg hm he z
  unfold Jwe.rsaEncrypt
  simp only [hx, PyVal.getItem, g1, g2, Bind.bind, Except.bind, hgen, rsaPadOf_name hm, hek, hhd, jwencNew,
    Option.isSome_none, Bool.false_eq_true, if_false, hinit, Jwt.b64EncodeHeader, hbh, hes, ne_eq,
    not_true_eq_false, ht]

/-- A pair of RSA key objects for the example. -/
def exRsaPub : Key where
  kty := .str "RSA"
  alg := .none
  use := .none
  kid := .none
  key := .rsa ⟨3233, 17, none⟩
  x5c := .none
  x5t := .none
  x5u := .none
  extra := []
  hash := none
  mat := .rsa ⟨.int 3233, .int 17, .none, .none, .none, .none, .none, .none, .none⟩
@[inherit_doc exRsaPub]
def exRsaPriv : Key := { exRsaPub with key := .rsa ⟨3233, 17, some (2753, 61, 53)⟩ }

theorem exRsaPriv_consistent : RsaKey.Consistent ⟨3233, 17, some (2753, 61, 53)⟩ :=
  ⟨17, 2753, 61, 53, rfl, rfl, rfl, by norm_num, by norm_num, by decide, rfl, rfl⟩

example : ∃ o t, Jwe.new toyEnv (.str "hello") (rsaKw "RSA-OAEP" "A192CBC-HS384" true) = .ok o ∧
    (o.encrypt toyEnv exRnd [exRsaPub]).1 = .ok t ∧
    ∀ rnd2, (RsaPad.oaep = .pkcs1 → rnd2.sentinel 0 ≠ exRnd.key 48) →
      (Jwe.decrypt toyEnv {} rnd2 (utf8Encode t) [exRsaPriv]).1 = .ok (utf8Encode "hello") :=
  C58_total toyCipher_lawful toyHashes_lawful toyRsa_lawful toyZlib_lawful exRnd_lengths .oaep .c192 true
    (.inl ⟨_, rfl, rfl⟩) (by decide +kernel) (fun _ => by decide +kernel)
    (k := exRsaPub) (k2 := exRsaPriv) ⟨⟨_, rfl⟩, rfl⟩ ⟨⟨_, rfl⟩, rfl⟩ ⟨exRsaPriv_consistent, rfl, rfl⟩
    ⟨.inr (.inl rfl), by decide, by decide, by decide⟩ ⟨.inr (.inl rfl), by decide, by decide, by decide⟩
    (by decide) (fun c _ => ⟨_, rfl⟩)

end Verif
