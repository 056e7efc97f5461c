import Verif.Model.JweDirect
import Verif.Props.JweAuth
/-
C144: the class `JWE_RSA` used by itself, and `with_digest`.
-/

namespace Verif
open Spec

/-- What is handed to RSA: under PKCS #1 v1.5 and `with_digest` the content key with its SHA-1 digest. -/
def Spec.RsaPlain (E : Env) (wd : Bool) (p : RsaPad) (c x : Bytes) : Prop :=
  (p = .pkcs1 ∧ wd = true ∧ x = c ++ E.H.hash .sha1 c) ∨ ((p ≠ .pkcs1 ∨ wd = false) ∧ x = c)

/-- `x` encrypted by the library with the padding. -/
def Spec.RsaSealedD (R : RsaLib) (p : RsaPad) (rnd : Nat) (r : RsaKey) (x ek : Bytes) : Prop :=
  match p with
  | .pkcs1 => R.enc15 r rnd x = .ok ek
  | .oaep => R.encOaep .sha1 r rnd x = .ok ek
  | .oaep256 => R.encOaep .sha256 r rnd x = .ok ek

theorem rsaEncrypter_sealed {E : Env} {wd : Bool} {rnd : Nat} {c ek : Bytes} {r : RsaKey} {p : RsaPad}
    (h : rsaEncrypterEncrypt E wd rnd c (.obj (.rsa r)) p = .ok ek) :
    ∃ x, RsaPlain E wd p c x ∧ RsaSealedD E.R p rnd r x ek := by
  unfold rsaEncrypterEncrypt at h
  simp only [rsaKeyArg, Bind.bind, Except.bind] at h
  cases p with
  | pkcs1 =>
    cases wd with
    | true => exact ⟨_, .inl ⟨rfl, rfl, rfl⟩, h⟩
    | false => exact ⟨_, .inr ⟨.inr rfl, rfl⟩, h⟩
  | oaep => exact ⟨c, .inr ⟨.inl (by simp), rfl⟩, h⟩
  | oaep256 => exact ⟨c, .inr ⟨.inl (by simp), rfl⟩, h⟩

/-- What decryption finds in a sealed value. -/
theorem rsaEncrypterDecrypt_sealed {E : Env} (hR : E.R.Lawful) {r r2 : RsaKey} (ho : r2.Owns r) {p : RsaPad}
    {rnd : Nat} {x ek : Bytes} (h : RsaSealedD E.R p rnd r x ek) (wd : Bool) (sent : Bytes) :
    rsaEncrypterDecrypt E wd sent ek (.obj (.rsa r2)) p =
      if p = .pkcs1 then rsaCheckText E wd sent x else .ok x := by
  unfold rsaEncrypterDecrypt
  simp only [rsaKeyArg, Bind.bind, Except.bind]
  cases p with
  | pkcs1 => simp [hR.pkcs1_enc _ _ _ _ _ ho h]
  | oaep => simp [hR.oaep_enc _ _ _ _ _ _ ho h]
  | oaep256 => simp [hR.oaep_enc _ _ _ _ _ _ ho h]

/-- What a `JWE_RSA` object makes without a content key from the caller. -/
theorem jweRsaEncrypt_parts {E : Env} (hC : E.C.Lawful) (hH : E.H.Lawful) (hZ : E.Z.Lawful)
    {o : Jwe} {wd : Bool} {rnd : JweRnd} (hr : RndLengths rnd) {r : RsaKey} {iv c : Bytes} {t : String}
    {alg : String} {p : RsaPad} (halg : PyDict.get? o.dict "alg" = some (.str alg))
    (hm : MgmtName alg (.rsa p)) (hd : Distinct (.dict o.dict))
    (hj : ∀ k v, o.jwk = some (.key k) → k.serializeDflt = .ok v → Distinct v)
    (h : jweRsaEncrypt E o wd rnd r [] iv = .ok (t, c)) :
    ∃ m enc b x s0 h' ek iv' ct tag, MsgBytes o.msg m ∧ RsaPlain E wd p c x ∧ RsaSealedD E.R p rnd.rsa r x ek ∧
      JweParts (utf8Encode t) s0 (.dict h') ek iv' ct tag ∧
      PyDict.get? h' "alg" = some (.str alg) ∧ PyDict.get? h' "enc" = some (.str enc) ∧
      PyDict.get? o.dict "enc" = some (.str enc) ∧ enc ∈ jweSupportedEnc ∧
      jweDecrypt E (.str enc) c ct s0 iv' tag = .ok b ∧
      (if PyDict.get? h' "zip" = some (.str "DEF") then E.Z.decompress b else .ok b) = .ok m ∧
      (∀ n i, EncName enc n i → c.length = n) := by
  unfold jweRsaEncrypt at h
  obtain ⟨enc, iv', msg, ek, bh, h', ct, tag, henc, hgen, hzip, hek, hparts, hA, hE, hz0, hz1, hes⟩ :=
    rsaEncrypt_ok hm halg hd hj h
  obtain ⟨hc1, hc2, hc3⟩ := generate_ok hr hgen
  obtain ⟨mb, rfl, hfam, hdec⟩ := encSetup_roundtrip hC hH hc1 hc2 hes
  obtain ⟨encs, rfl, hencs⟩ := enc_is_str hfam
  obtain ⟨m, hmm, hun⟩ := unzip_msg hZ hzip hz0 hz1
  obtain ⟨x, hx, hs⟩ := rsaEncrypter_sealed (hek.resolve_left (by simp)).2
  refine ⟨m, encs, mb, x, bh, h', ek, iv', ct, tag, hmm, hx, hs, hparts, hA, hE _ (supported_ne hencs) rfl, henc,
    hencs, hdec, hun, ?_⟩
  intro n i he
  obtain ⟨hlk, -⟩ := encName_lookup he
  unfold generateKeyAndIv at hgen
  simp only [hlk, ne_eq, not_true_eq_false, false_and, if_false] at hgen
  cases hgen
  exact hr.1 n

/-- **C144.** What a `JWE_RSA` object makes is opened by every `JWE_RSA` object with the same
`with_digest` and the private key of the modulus.  Without `with_digest` and under RSA1_5 the random
sentinel of decryption must not happen to be the content key. -/
theorem C144_roundtrip {E : Env} (hC : E.C.Lawful) (hH : E.H.Lawful) (hR : E.R.Lawful) (hZ : E.Z.Lawful)
    {o : Jwe} {wd : Bool} {rnd : JweRnd} (hr : RndLengths rnd) {r : RsaKey} {iv c : Bytes} {t : String}
    {alg : String} {p : RsaPad} (halg : PyDict.get? o.dict "alg" = some (.str alg))
    (hm : MgmtName alg (.rsa p)) (hd : Distinct (.dict o.dict))
    (hj : ∀ k v, o.jwk = some (.key k) → k.serializeDflt = .ok v → Distinct v)
    (h : jweRsaEncrypt E o wd rnd r [] iv = .ok (t, c)) :
    ∃ m x s0 h' ek iv' ct tag, MsgBytes o.msg m ∧ JweParts (utf8Encode t) s0 h' ek iv' ct tag ∧
      RsaPlain E wd p c x ∧ RsaSealedD E.R p rnd.rsa r x ek ∧
      ∀ r2 sent, r2.Owns r → (p = .pkcs1 → wd = false → sent ≠ c) →
        jweRsaDecrypt E wd sent (utf8Encode t) r2 = .ok (m, c) := by
  obtain ⟨m, enc, b, x, s0, h', ek, iv', ct, tag, hmm, hx, hs, hp, hA, hE, -, hencs, hdec, hun, -⟩ :=
    jweRsaEncrypt_parts hC hH hZ hr halg hm hd hj h
  refine ⟨m, x, s0, _, ek, iv', ct, tag, hmm, hp, hx, hs, fun r2 sent hown hsent => ?_⟩
  obtain ⟨hb, hunp⟩ := jweParts_unpack hp
  have hkey : rsaEncrypterDecrypt E wd sent ek (.obj (.rsa r2)) p = .ok c := by
    rw [rsaEncrypterDecrypt_sealed hR hown hs]
    have h20 : (E.H.hash .sha1 c).length = 20 := hH.hash_length .sha1 c
    rcases hx with ⟨rfl, rfl, rfl⟩ | ⟨hor, rfl⟩
    · simp [rsaCheckText, h20]
    · split
      · rename_i hp1
        have hwd : wd = false := hor.resolve_left (by simp [hp1])
        subst hwd
        have hne : ¬ x = sent := fun e => hsent hp1 rfl e.symm
        simp [rsaCheckText, hne]
      · rfl
  unfold jweRsaDecrypt
  simp only [hunp, Bind.bind, Except.bind]
  rw [rsaDecrypt_parts rfl hA hm hE hencs]
  simp only [ne_eq, not_true_eq_false, if_false, Option.getD_some, hkey, Except.bind, hdec, hun, Except.map]

/-- **C144.** A token made without `with_digest` is refused, under RSA1_5, by an object with it (unless the
content key happens to end in the SHA-1 digest of its beginning). -/
theorem C144_no_digest {E : Env} (hC : E.C.Lawful) (hH : E.H.Lawful) (hR : E.R.Lawful) (hZ : E.Z.Lawful)
    {o : Jwe} {rnd : JweRnd} (hr : RndLengths rnd) {r r2 : RsaKey} (hown : r2.Owns r) {iv c sent : Bytes}
    {t : String} (halg : PyDict.get? o.dict "alg" = some (.str "RSA1_5")) (hd : Distinct (.dict o.dict))
    (hj : ∀ k v, o.jwk = some (.key k) → k.serializeDflt = .ok v → Distinct v)
    (h : jweRsaEncrypt E o false rnd r [] iv = .ok (t, c)) (hca : ∀ a, c ≠ a ++ E.H.hash .sha1 a) :
    jweRsaDecrypt E true sent (utf8Encode t) r2 = .error .decryptionFailed := by
  obtain ⟨m, enc, b, x, s0, h', ek, iv', ct, tag, hmm, hx, hs, hp, hA, hE, -, hencs, hdec, hun, -⟩ :=
    jweRsaEncrypt_parts hC hH hZ hr halg .rsa15 hd hj h
  obtain rfl : x = c := by
    rcases hx with ⟨-, hf, -⟩ | ⟨-, e⟩
    · cases hf
    · exact e
  obtain ⟨hb, hunp⟩ := jweParts_unpack hp
  have hkey : rsaEncrypterDecrypt E true sent ek (.obj (.rsa r2)) .pkcs1 = .error .decryptionFailed := by
    rw [rsaEncrypterDecrypt_sealed hR hown hs]
    simp only [if_true, rsaCheckText]
    rw [if_neg]
    intro e
    exact hca (x.take (x.length - 20)) (by rw [e, List.take_append_drop])
  unfold jweRsaDecrypt
  simp only [hunp, Bind.bind, Except.bind]
  rw [rsaDecrypt_parts rfl hA .rsa15 hE hencs]
  simp only [ne_eq, not_true_eq_false, if_false, Option.getD_some, hkey, Except.bind]

/-- **C144.** A token made with `with_digest` under RSA1_5 and a CBC content encryption is opened by no object
without it (such as those of `JWE.decrypt`): the digest is taken for a part of the content key. -/
theorem C144_digest_lost {E : Env} (hC : E.C.Lawful) (hH : E.H.Lawful) (hR : E.R.Lawful) (hZ : E.Z.Lawful)
    {o : Jwe} {rnd : JweRnd} (hr : RndLengths rnd) {r r2 : RsaKey} (hown : r2.Owns r) {iv c sent : Bytes}
    {t : String} (halg : PyDict.get? o.dict "alg" = some (.str "RSA1_5")) (hd : Distinct (.dict o.dict))
    (hj : ∀ k v, o.jwk = some (.key k) → k.serializeDflt = .ok v → Distinct v)
    (h : jweRsaEncrypt E o true rnd r [] iv = .ok (t, c))
    (hcbc : ∃ enc, PyDict.get? o.dict "enc" = some (.str enc) ∧
      (enc = "A128CBC-HS256" ∨ enc = "A192CBC-HS384" ∨ enc = "A256CBC-HS512")) (m : Bytes × Bytes) :
    jweRsaDecrypt E false sent (utf8Encode t) r2 ≠ .ok m := by
  obtain ⟨m', enc, b, x, s0, h', ek, iv', ct, tag, hmm, hx, hs, hp, hA, hE, henc, hencs, hdec, hun, hlen⟩ :=
    jweRsaEncrypt_parts hC hH hZ hr halg .rsa15 hd hj h
  obtain rfl : x = c ++ E.H.hash .sha1 c := by
    rcases hx with ⟨-, -, e⟩ | ⟨hf, -⟩
    · exact e
    · simp at hf
  have h20 : (E.H.hash .sha1 c).length = 20 := hH.hash_length .sha1 c
  obtain ⟨enc', he', hcb⟩ := hcbc
  rw [henc] at he'
  cases he'
  obtain ⟨hb, hunp⟩ := jweParts_unpack hp
  intro hok
  unfold jweRsaDecrypt at hok
  simp only [hunp, Bind.bind, Except.bind] at hok
  rw [rsaDecrypt_parts rfl hA .rsa15 hE hencs] at hok
  simp only [ne_eq, not_true_eq_false, if_false, Option.getD_some, rsaEncrypterDecrypt_sealed hR hown hs,
    if_true, rsaCheckText, Bool.false_eq_true] at hok
  split at hok
  · cases hok
  · simp only [Except.bind] at hok
    obtain ⟨q, hq, -⟩ := bind_ok_iff.mp hok
    obtain ⟨s, hse, hau⟩ := jweDecrypt_authentic hC hq
    cases hse
    have hl : c.length = 32 ∨ c.length = 48 ∨ c.length = 64 := by
      rcases hcb with rfl | rfl | rfl
      · exact .inl (hlen _ _ .c128)
      · exact .inr (.inl (hlen _ _ .c192))
      · exact .inr (.inr (hlen _ _ .c256))
    rcases hau with ⟨hg, -⟩ | ⟨-, -, -, s, a, hin, -⟩
    · rcases hcb with rfl | rfl | rfl <;> simp at hg
    · rw [List.length_append, h20] at hin
      simp only [cbcHmacParams, List.mem_cons, Prod.mk.injEq, List.not_mem_nil, or_false] at hin
      omega

/-- **C144.** If the RSA padding is wrong, decryption fails, with or without `with_digest` (unless the random
sentinel happens to end in the SHA-1 digest of its beginning). -/
theorem C144_padding {E : Env} {wd : Bool} {token s0 ek iv ct tag sent : Bytes} {h' : PyDict} {enc : String}
    {r : RsaKey} (hp : JweParts token s0 (.dict h') ek iv ct tag)
    (hA : PyDict.get? h' "alg" = some (.str "RSA1_5")) (hE : PyDict.get? h' "enc" = some (.str enc))
    {n i : Nat} (hencs : EncName enc n i) (hbad : E.R.dec15 r ek = .ok none)
    (hs : wd = true → ∀ a, sent ≠ a ++ E.H.hash .sha1 a) :
    jweRsaDecrypt E wd sent token r = .error .decryptionFailed := by
  obtain ⟨hb, hunp⟩ := jweParts_unpack hp
  have hkey : rsaEncrypterDecrypt E wd sent ek (.obj (.rsa r)) .pkcs1 = .error .decryptionFailed := by
    unfold rsaEncrypterDecrypt
    simp only [rsaKeyArg, Bind.bind, Except.bind, hbad, Option.getD_none, rsaCheckText]
    cases wd
    · simp
    · simp only [if_true]
      rw [if_neg]
      intro e
      exact hs rfl (sent.take (sent.length - 20)) (by rw [e, List.take_append_drop])
  unfold jweRsaDecrypt
  simp only [hunp, Bind.bind, Except.bind]
  rw [rsaDecrypt_parts rfl hA .rsa15 hE (by cases hencs <;> decide)]
  simp only [ne_eq, not_true_eq_false, if_false, Option.getD_some, hkey, Except.bind]

/-- **C144.** `JWE(msg, with_digest=v, ...)` is the object made without this keyword. -/
theorem C144_ignored (E : Env) (msg v : PyVal) (kw : PyDict) :
    Jwe.new E msg (kw ++ [("with_digest", v)]) = Jwe.new E msg kw := by
  have hh : ∀ n : String, n ≠ "with_digest" →
      PyDict.has (kw ++ [("with_digest", v)]) n = PyDict.has kw n := by
    intro n hn
    have hb : (n == "with_digest") = false := by simpa using hn
    simp only [PyDict.has, PyDict.get?]
    induction kw with
    | nil => simp [List.lookup_cons, hb]
    | cons p kw ih =>
      obtain ⟨a, w⟩ := p
      by_cases ha : (n == a) = true
      · simp [List.lookup_cons, ha]
      · have ha : (n == a) = false := by simpa using ha
        simpa [List.lookup_cons, ha] using ih
  have h1 : stripInit (kw ++ [("with_digest", v)]) = stripInit kw := by
    unfold stripInit
    rw [List.filter_append]
    simp
  unfold Jwe.new
  rw [h1, hh _ (by decide), hh _ (by decide)]

/-- **C144.** The complete scenario, with or without `with_digest`. -/
theorem C144_total {E : Env} (hC : E.C.Lawful) (hH : E.H.Lawful) (hR : E.R.Lawful) (hZ : E.Z.Lawful)
    {rnd : JweRnd} (hr : RndLengths rnd) (wd : Bool)
    {alg enc : String} {p : RsaPad} {kl il : Nat} (hm : MgmtName alg (.rsa p)) (he : EncName enc kl il)
    (z : Bool) {msg : PyVal} {m : Bytes} (hmsg : MsgBytes msg m) (hl : m.length ≤ 16 * 2 ^ 32)
    (hlz : z = true → (E.Z.compress m).length ≤ 16 * 2 ^ 32) {r r2 : RsaKey} (hown : r2.Owns r)
    (hlib : ∀ x, x.length ≤ 84 → ∃ ek, RsaSealedD E.R p rnd.rsa r x ek) :
    ∃ o t, Jwe.new E msg (rsaKw alg enc z ++ [("with_digest", .bool wd)]) = .ok o ∧
      jweRsaEncrypt E o wd rnd r = .ok (t, rnd.key kl) ∧
      ∀ sent, (p = .pkcs1 → wd = false → sent ≠ rnd.key kl) →
        jweRsaDecrypt E wd sent (utf8Encode t) r2 = .ok (m, rnd.key kl) := by
  obtain ⟨g1, g2, g3, g4, g5⟩ := rsaKw_get alg enc z
  obtain ⟨hlk, -⟩ := encName_lookup he
  have hgen : generateKeyAndIv rnd (.str enc) [] [] = .ok (rnd.key kl, rnd.iv il) := by
    unfold generateKeyAndIv
    simp [hlk]
  have hne : alg ≠ "" := (mgmt_keytype hm).1
  have hta : (PyVal.str alg).truthy = true := by simp [PyVal.truthy, hne]
  refine ⟨{ msg := msg, dict := rsaKw alg enc z }, ?_⟩
  suffices h : ∃ t, jweRsaEncrypt E { msg := msg, dict := rsaKw alg enc z } wd rnd r = .ok (t, rnd.key kl) by
    obtain ⟨t, ht⟩ := h
    refine ⟨t, by rw [C144_ignored, rsaKw_new], ht, fun sent hs => ?_⟩
    have hd : Distinct (.dict (rsaKw alg enc z)) := by cases z <;> simp [rsaKw, Distinct, DistinctD]
    obtain ⟨m', x, s0, h', ek, iv', ct, tag, h5, -, -, -, h6⟩ :=
      C144_roundtrip hC hH hR hZ hr (alg := alg) (p := p) g1 hm hd (by intro k v hv; cases hv) ht
    have hm' : m' = m := by
      have h5 : MsgBytes msg m' := h5
      rcases h5 with ⟨s, rfl, rfl⟩ | rfl <;> rcases hmsg with ⟨s', h, rfl⟩ | h <;> cases h <;> rfl
    subst hm'
    exact h6 r2 sent hown hs
  obtain ⟨bh, hbh, hbl⟩ := rsaKw_header hm he z
  have h20 : (E.H.hash .sha1 (rnd.key kl)).length = 20 := hH.hash_length .sha1 _
  have hkl : (rnd.key kl).length ≤ 64 := by rw [hr.1]; cases he <;> decide
  obtain ⟨ek, hek⟩ : ∃ ek, rsaEncrypterEncrypt E wd rnd.rsa (rnd.key kl) (.obj (.rsa r)) p = .ok ek := by
    obtain ⟨e1, h1⟩ := hlib (rnd.key kl) (by omega)
    obtain ⟨e2, h2⟩ := hlib (rnd.key kl ++ E.H.hash .sha1 (rnd.key kl)) (by rw [List.length_append, h20]; omega)
    unfold rsaEncrypterEncrypt
    simp only [rsaKeyArg, Bind.bind, Except.bind]
    cases p with
    | pkcs1 => cases wd <;> [exact ⟨e1, h1⟩; exact ⟨e2, h2⟩]
    | oaep => exact ⟨e1, h1⟩
    | oaep256 => exact ⟨e1, h1⟩
  have hasb : asBytes msg = .bytes m := by
    rcases hmsg with ⟨s, rfl, rfl⟩ | rfl <;> rfl
  obtain ⟨x, hx, hxl⟩ : ∃ x, Jwe.zipMsg E { msg := msg, dict := rsaKw alg enc z } = .ok (.bytes x) ∧
      x.length ≤ 16 * 2 ^ 32 := by
    unfold Jwe.zipMsg
    simp only [g3, hasb]
    cases z
    · exact ⟨m, rfl, hl⟩
    · exact ⟨E.Z.compress m, rfl, hlz rfl⟩
  obtain ⟨ct, tag, hes⟩ := encSetup_total (E := E) (rnd := rnd) hC hH he (m := x) (aad := bh)
    (hr.1 kl) (hr.2 il) hxl hbl
  have hinit := init_header hbh g5 (by rw [g1]; exact hta)
  obtain ⟨t, ht⟩ := pack_succeeds (j := Jwt.mk (.dict (rsaKw alg enc z)) [bh] [(b64d bh).toOption.getD []]) rfl
      (by simp [rsaKw]) (by cases z <;> rfl) (ek := .bytes ek) (.inr rfl) (rnd.iv il) ct tag
  refine ⟨t, ?_⟩
  have hhd := rsaKw_headers msg hm he z
  unfold jweRsaEncrypt Jwe.rsaEncrypt
  simp only [hx, PyVal.getItem, g1, g2, Bind.bind, Except.bind, hgen, rsaPadOf_name hm, hek, hhd, jwencNew,
    Option.isSome_none, Bool.false_eq_true, if_false, hinit, Jwt.b64EncodeHeader, hbh, hes, ne_eq,
    not_true_eq_false, ht]

/-- The keys of the examples. -/
def exDirectPub : RsaKey := ⟨3233, 17, none⟩
@[inherit_doc exDirectPub]
def exDirectPriv : RsaKey := ⟨3233, 17, some (2753, 61, 53)⟩

/-- C144_total, C144_roundtrip, C144_digest_lost. -/
example : ∃ o t, Jwe.new toyEnv (.str "hello") (rsaKw "RSA1_5" "A128CBC-HS256" true ++ [("with_digest", .bool true)])
      = .ok o ∧
    jweRsaEncrypt toyEnv o true exRnd exDirectPub = .ok (t, exRnd.key 32) ∧
    (∀ sent, (RsaPad.pkcs1 = .pkcs1 → true = false → sent ≠ exRnd.key 32) →
      jweRsaDecrypt toyEnv true sent (utf8Encode t) exDirectPriv = .ok (utf8Encode "hello", exRnd.key 32)) ∧
    ∀ sent m, jweRsaDecrypt toyEnv false sent (utf8Encode t) exDirectPriv ≠ .ok m := by
  have hown : exDirectPriv.Owns exDirectPub := ⟨exRsaPriv_consistent, rfl, rfl⟩
  obtain ⟨o, t, h1, h2, h3⟩ := C144_total (E := toyEnv) toyCipher_lawful toyHashes_lawful toyRsa_lawful toyZlib_lawful
    exRnd_lengths true .rsa15 .c128 true (.inl ⟨"hello", rfl, rfl⟩) (by decide +kernel) (fun _ => by decide +kernel)
    hown (fun x _ => ⟨_, rfl⟩)
  refine ⟨o, t, h1, h2, h3, fun sent m => ?_⟩
  rw [C144_ignored, rsaKw_new] at h1
  cases h1
  exact C144_digest_lost (E := toyEnv) toyCipher_lawful toyHashes_lawful toyRsa_lawful toyZlib_lawful exRnd_lengths
    hown rfl (by simp [rsaKw, Distinct, DistinctD]) (by intro k v hv; cases hv) h2 ⟨_, rfl, .inl rfl⟩ m

/-- C144_no_digest. -/
example : ∃ o t, Jwe.new toyEnv (.str "hello") (rsaKw "RSA1_5" "A128CBC-HS256" false ++ [("with_digest", .bool false)])
      = .ok o ∧
    jweRsaEncrypt toyEnv o false exRnd exDirectPub = .ok (t, exRnd.key 32) ∧
    ∀ sent, jweRsaDecrypt toyEnv true sent (utf8Encode t) exDirectPriv = .error .decryptionFailed := by
  have hown : exDirectPriv.Owns exDirectPub := ⟨exRsaPriv_consistent, rfl, rfl⟩
  obtain ⟨o, t, h1, h2, h3⟩ := C144_total (E := toyEnv) toyCipher_lawful toyHashes_lawful toyRsa_lawful toyZlib_lawful
    exRnd_lengths false .rsa15 .c128 false (.inl ⟨"hello", rfl, rfl⟩) (by decide +kernel) (fun h => by cases h)
    hown (fun x _ => ⟨_, rfl⟩)
  refine ⟨o, t, h1, h2, fun sent => ?_⟩
  rw [C144_ignored, rsaKw_new] at h1
  cases h1
  refine C144_no_digest (E := toyEnv) toyCipher_lawful toyHashes_lawful toyRsa_lawful toyZlib_lawful exRnd_lengths
    hown rfl (by simp [rsaKw, Distinct, DistinctD]) (by intro k v hv; cases hv) h2 ?_
  intro a ha
  have hlen : a.length = 12 := by
    have := congrArg List.length ha
    rw [List.length_append, show (toyEnv.H.hash .sha1 a).length = 20 from toyHashes_lawful.hash_length _ _,
      exRnd_lengths.1] at this
    omega
  have hat : a = (exRnd.key 32).take 12 := by
    rw [ha, List.take_append_of_le_length (by omega), List.take_of_length_le (by omega)]
  subst hat
  exact absurd ha (by decide)

/-- C144_padding: an encrypted key that is not the outcome of the encryption. -/
example : jweRsaDecrypt toyEnv true (List.replicate 32 9 ++ List.replicate 20 8)
    (b64e (utf8Encode "{\"alg\": \"RSA1_5\", \"enc\": \"A128GCM\"}") ++ 46 :: b64e [1, 2] ++ 46 :: b64e [3] ++
      46 :: b64e [4] ++ 46 :: b64e [5]) exDirectPriv = .error .decryptionFailed := by
  have hl : jsonLoads "{\"alg\": \"RSA1_5\", \"enc\": \"A128GCM\"}" =
      .ok (.dict [("alg", .str "RSA1_5"), ("enc", .str "A128GCM")]) := by decide +kernel
  refine C144_padding (E := toyEnv) ⟨rfl, _, rfl, hl⟩ rfl rfl .g128 rfl fun _ a ha => ?_
  have hlen : a.length = 32 := by
    have := congrArg List.length ha
    rw [List.length_append (as := a), show (toyEnv.H.hash .sha1 a).length = 20 from
      toyHashes_lawful.hash_length _ _] at this
    simp at this
    omega
  have hat : a = (List.replicate 32 9 ++ List.replicate 20 8 : Bytes).take 32 := by
    rw [ha, List.take_append_of_le_length (by omega), List.take_of_length_le (by omega)]
  subst hat
  exact absurd ha (by decide)

end Verif
