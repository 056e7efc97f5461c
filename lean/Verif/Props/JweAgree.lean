import Verif.Props.Interop
import Verif.Props.JweForgery
import Verif.Props.Real
/-
C114: which ECDH-ES tokens are opened.
-/

namespace Verif
open Spec

/-- **C114.** Whatever the keys, a token for ECDH-ES whose header has not both `apu` and `apv` (RFC 7518 makes both
optional) is not opened. -/
theorem C114_needs {E : Env} (hC : E.C.Lawful) {o : Jwe} {rnd : JweRnd} {token s0 ek iv ct tag : Bytes}
    {h : PyDict} (hp : JweParts token s0 (.dict h) ek iv ct tag) {alg : String} {mg : KeyMgmt}
    (halg : PyDict.get? h "alg" = some (.str alg)) (hm : MgmtName alg mg) (hec : MgmtType mg = ("ec", "EC"))
    (hno : PyDict.get? h "apu" = none ∨ PyDict.get? h "apv" = none) (keys : List Key) (a : PyVal) (cek m : Bytes) :
    (o.decrypt E rnd token keys a cek).1 ≠ .ok m := by
  intro hd
  have hne : token ≠ [] := by
    rintro rfl
    obtain ⟨hb, hun⟩ := jweParts_unpack hp
    cases hun
  obtain ⟨hd', a', enc, t0, ek', iv', ct', tag', ex, ck, pt, hr, ha, he, hk, -, -, -⟩ := C93_message hC (.inl ⟨hne, rfl⟩) hd
  have hh : hd' = h := by
    obtain ⟨p, hs, hb, hu, hj⟩ := hr.header
    obtain ⟨s1, s2, s3, s4, hseg, -⟩ := hr.parts
    obtain ⟨hb', hun⟩ := jweParts_unpack hp
    obtain ⟨-, g1, g2, p0, rest, s, g3, g4, g5⟩ := (C09_unpack_iff _ _).mp hun
    have := C09_segments_unique hseg g1
    cases this
    cases g2 with
    | cons g6 g7 =>
      cases g3
      rw [hb] at g6
      cases g6
      rw [hu] at g4
      cases g4
      rw [hj] at g5
      cases g5
      rfl
  subst hh
  rw [halg] at ha
  cases ha
  have hag : ∀ {k name n c}, Agrees E hd' k name n c → False := by
    rintro k name n c ⟨C, d, x, y, P, z, apu, apv, -, -, -, -, ⟨su, hu, -⟩, ⟨sv, hv, -⟩, -⟩
    rcases hno with h | h
    · rw [h] at hu; cases hu
    · rw [h] at hv; cases hv
  have hnk : ¬ (alg = "RSA1_5" ∨ alg = "RSA-OAEP" ∨ alg = "RSA-OAEP-256" ∨
      ∃ x, alg.toList = 'A' :: x ∧ ['K', 'W'] <:+ alg.toList) := by
    cases hm <;> simp [MgmtType] at hec ⊢
  cases hk with
  | direct _ _ _ h => exact hag h
  | agreeWrap _ _ _ h => exact hag h
  | given _ h => exact hnk h
  | wrapped _ h => exact hnk (.inr (.inr (.inr h)))
  | rsa _ _ h =>
    rcases h with ⟨h, -⟩ | ⟨h, -⟩ | ⟨h, -⟩
    · exact hnk (.inl h)
    · exact hnk (.inr (.inl h))
    · exact hnk (.inr (.inr (.inl h)))

/-- What `dec_setup` computes. -/
theorem ecDecSetup_agrees {E : Env} {j : Jwt} {s0 ek iv ct tag hb : Bytes} {h : PyDict} {alg enc name : String} {n : Nat}
    (hj : j = Jwt.mk (.dict h) [s0, b64e ek, b64e iv, b64e ct, b64e tag] [hb, ek, iv, ct, tag])
    (halg : PyDict.get? h "alg" = some (.str alg)) (henc : PyDict.get? h "enc" = some (.str enc)) {k : Key} {c kek : Bytes}
    (hag : Agrees E h k name n kek)
    (hc : (alg = "ECDH-ES" ∧ name = enc ∧ keylen (.str enc) = .ok (n, utf8Encode enc) ∧ c = kek) ∨
      (alg ≠ "ECDH-ES" ∧ ecKwAlg (.str alg) = some (utf8Encode name, n) ∧ aesUnwrapKey E.C kek ek = .ok c)) :
    ecDecSetup E j k = .ok (c, iv, ct, tag) := by
  obtain ⟨C, d, x, y, P, z, apu, apv, ⟨e, ek', crv, ed, he, hek, hem⟩, ⟨kcrv, kx, ky, dv, kc, hkm, hdv, hd0⟩, hP, hz,
    ⟨su, hu, hu'⟩, ⟨sv, hv, hv'⟩, hdr⟩ := hag
  replace hP := esPub_point.mpr hP
  replace hek : ecKeyOfHeader (.dict e) = .ok ek' := hek
  subst hj
  have hcrv : ∃ v, PyDict.get? e "crv" = some v := by
    cases hx : PyDict.get? e "crv" with
    | some v => exact ⟨v, rfl⟩
    | none =>
      exfalso
      have hg : kwGet e "crv" (.str "") = .str "" := by simp [kwGet, hx]
      have hst : (PyVal.str "").truthy = false := rfl
      simp only [ecKeyOfHeader, ecKeyNew, hg, hst, Bool.false_eq_true, false_and, if_false, Bind.bind] at hek
      split at hek
      · cases hek
      split at hek
      · split at hek
        · simp [ecLoadKey] at hek
        · cases hek
          simp [keyCommon] at hem
      · cases hek
        simp [keyCommon] at hem
  obtain ⟨cv, hcv⟩ := hcrv
  have h1 : headerEpk (.dict h) = .ok (.dict e) := by
    simp [headerEpk, PyVal.contains, PyVal.getItem, PyDict.has, he, hcv, Bind.bind, Except.bind]
  have hpar : ∀ n s b, PyDict.get? h n = some (.str s) → b64d (utf8Encode s) = .ok b →
      headerParty (.dict h) n = .ok (some b) := by
    intro n s b hn hs
    simp [headerParty, PyVal.contains, PyVal.getItem, PyDict.has, hn, hs, Bind.bind, Except.bind, Except.map]
  have h3 : headerKeylen (.dict h) = keylen (.str enc) := by
    simp [headerKeylen, PyVal.getItem, henc]
  have hder : ecdhDerive E (.curve C) dv x y (some apu) (some apv) (utf8Encode name) n = .ok kek := by
    simp only [ecdhDerive, dhScalar, hdv, Bind.bind]
    rw [if_neg (by omega)]
    simp only [ebind_ok, hP, hz, hdr]
  unfold ecDecSetup
  simp only [Jwt.partAt, List.getElem?_cons_succ, List.getElem?_cons_zero, h1, hek, hpar _ _ _ hu hu',
    hpar _ _ _ hv hv', h3, PyVal.getItem, halg, ecAttrs, hem, hkm, Bind.bind, ebind_ok, PyVal.str.injEq]
  rcases hc with ⟨ha, rfl, hkl, rfl⟩ | ⟨ha, hkw, hun⟩
  · rw [if_pos ha, hkl]
    simp only [ebind_ok, hder]
  · rw [if_neg ha, hkw]
    simp only [ebind_ok, hder, hun]

theorem agree_decrypt {E : Env} (hC : E.C.Lawful) {s0 ek iv ct tag hb : Bytes} {h : PyDict} {enc : String}
    (henc : PyDict.get? h "enc" = some (.str enc)) {rnd : JweRnd} {alg : PyVal} {keys : List Key} {c pt : Bytes}
    (hct : RfcContent E enc c iv s0 pt ct tag) (hkt : KeyTaken enc c) :
    (decryptTry E .ec rnd (Jwt.mk (.dict h) [s0, b64e ek, b64e iv, b64e ct, b64e tag] [hb, ek, iv, ct, tag])
      (c, iv, ct, tag) alg keys c).map Prod.fst = .ok pt := by
  have hdec := C111_content hC hct hkt
  have hcne : c ≠ [] := by
    rintro rfl
    cases hct with
    | gcm he hkl => cases he <;> cases hkl
    | cbc he hkl => cases he <;> cases hkl
  have hfin : ecDecrypt E (Jwt.mk (.dict h) [s0, b64e ek, b64e iv, b64e ct, b64e tag]
      [hb, ek, iv, ct, tag]) (c, iv, ct, tag) = .ok pt := by
    unfold ecDecrypt
    simp only [if_neg hcne, PyVal.getItem, henc, Bind.bind, ebind_ok, Jwt.b64ProtectedHeader,
      List.getElem?_cons_zero, hdec]
  simp only [decryptTry, if_neg hcne, decryptBy, hfin, Except.map]

/-- **C114.** Any other token for ECDH-ES is opened with the first key picked, if the content is encrypted as RFC 7518 says
under the key agreed on with the derivation of C42 (not that of RFC 7518, C91). -/
theorem C114_direct {E : Env} (hC : E.C.Lawful) {token s0 ek iv ct tag : Bytes} {h : PyDict}
    (hp : JweParts token s0 (.dict h) ek iv ct tag) {enc : String} {n i : Nat} (hn : EncName enc n i)
    (halg : PyDict.get? h "alg" = some (.str "ECDH-ES")) (henc : PyDict.get? h "enc" = some (.str enc))
    {o : Jwe} {rnd : JweRnd} {keys l : List Key} {wk : PyVal} {k : Key} (heff : EffKeys o.toJwx keys l)
    (hsk : SignKid o.toJwx wk) (hf : FirstPicked .direct "ECDH-ES" wk l k) {c pt : Bytes}
    (hag : Agrees E h k enc (8 * n) c) (hct : RfcContent E enc c iv s0 pt ct tag) (hkt : KeyTaken enc c) :
    (o.decrypt E rnd token keys).1 = .ok pt := by
  obtain ⟨hb, hun⟩ := jweParts_unpack hp
  have hkl : keylen (.str enc) = .ok (8 * n, utf8Encode enc) := by cases hn <;> rfl
  obtain ⟨rest, hd1, hd2⟩ := decrypt_single (E := E) (rnd := rnd) hun rfl halg .dir heff hsk hf []
  rw [hd2, hd1, ecDecSetup_agrees rfl halg henc hag (.inl ⟨rfl, rfl, hkl, rfl⟩)]
  exact agree_decrypt hC henc hct hkt

/-- **C114.** The same for ECDH-ES with key wrap. -/
theorem C114_wrap {E : Env} (hC : E.C.Lawful) (hH : E.H.Lawful) {token s0 ek iv ct tag : Bytes} {h : PyDict}
    (hp : JweParts token s0 (.dict h) ek iv ct tag) {w enc : String} {n : Nat} (hw : MgmtName w (.wrap n))
    (halg : PyDict.get? h "alg" = some (.str ("ECDH-ES+" ++ w))) (henc : PyDict.get? h "enc" = some (.str enc))
    {o : Jwe} {rnd : JweRnd} {keys l : List Key} {wk : PyVal} {k : Key} (heff : EffKeys o.toJwx keys l)
    (hsk : SignKid o.toJwx wk) (hf : FirstPicked (.agreeWrap n) ("ECDH-ES+" ++ w) wk l k) {kek c pt : Bytes}
    (hag : Agrees E h k w (8 * n) kek) (hek : ek = rfc3394Wrap E.C kek 0xA6A6A6A6A6A6A6A6 (blocks8 c))
    (hct : RfcContent E enc c iv s0 pt ct tag) (hkt : KeyTaken enc c) :
    (o.decrypt E rnd token keys).1 = .ok pt := by
  obtain ⟨hb, hun⟩ := jweParts_unpack hp
  have hm : MgmtName ("ECDH-ES+" ++ w) (.agreeWrap n) ∧ "ECDH-ES+" ++ w ≠ "ECDH-ES" ∧
      ecKwAlg (.str ("ECDH-ES+" ++ w)) = some (utf8Encode w, 8 * n) ∧ (n = 16 ∨ n = 24 ∨ n = 32) := by
    generalize hx : KeyMgmt.wrap n = x at hw
    cases hw <;> cases hx
    · exact ⟨.ec128, by decide, by decide, .inl rfl⟩
    · exact ⟨.ec192, by decide, by decide, .inr (.inl rfl)⟩
    · exact ⟨.ec256, by decide, by decide, .inr (.inr rfl)⟩
  obtain ⟨hm, hne, hkw, hn⟩ := hm
  have hok : aesKeyOk kek = true := by
    obtain ⟨C, d, x, y, P, z, apu, apv, -, -, -, -, -, -, hdr⟩ := hag
    unfold ecdhDeriveFromZ at hdr
    simp only [Bind.bind] at hdr
    obtain ⟨oi, -, hdr⟩ := bind_ok_iff.mp hdr
    obtain ⟨out', h1, h2, h3, -⟩ := C41_concat E.H hH z oi (8 * n) (by unfold dkBytesOf; omega)
    rw [hdr] at h1
    cases h1
    have : kek.length = n := by omega
    unfold aesKeyOk
    rw [this]
    rcases hn with rfl | rfl | rfl <;> rfl
  have hl : c.length % 8 = 0 ∧ c.length < 2 ^ 61 := by
    cases hct with
    | gcm he hkl => rw [hkl]; cases he <;> decide
    | cbc he hkl => rw [hkl]; cases he <;> decide
  obtain ⟨wr, e1, -, e2⟩ := C35_roundtrip E.C hC _ c 0xa6a6a6a6a6a6a6a6 hok (by norm_num) hl.1 hl.2
  rw [C37_rfc3394 E.C hC _ c _ hok (by norm_num) hl.2] at e1
  cases e1
  subst hek
  obtain ⟨rest, hd1, hd2⟩ := decrypt_single (E := E) (rnd := rnd) hun rfl halg hm heff hsk hf []
  rw [hd2, hd1, ecDecSetup_agrees rfl halg henc hag (.inr ⟨hne, hkw, e2⟩)]
  exact agree_decrypt hC henc hct hkt

/-! ### Examples: the keys and header of RFC 7518 appendix C -/

@[inherit_doc C114_direct]
def exAliceHead (alg : String) : String := "{\"alg\":\"" ++ alg ++ "\",\"enc\":\"A128GCM\",\"apu\":\"QWxpY2U\",\"apv\":\"Qm9i\"," ++
  "\"epk\":{\"kty\":\"EC\",\"crv\":\"P-256\",\"x\":\"gI0GAILBdu7T53akrFmMyGcsF3n5dO7MmwNBHKW5SV0\"," ++
  "\"y\":\"SLW_xSffzlPWrHEVI30DHM_4egVwt3NQqeUD7nMFpps\"}}"

/-- The ephemeral key. -/
def exAliceEpk : PyDict :=
  [("kty", .str "EC"), ("crv", .str "P-256"), ("x", .str "gI0GAILBdu7T53akrFmMyGcsF3n5dO7MmwNBHKW5SV0"),
   ("y", .str "SLW_xSffzlPWrHEVI30DHM_4egVwt3NQqeUD7nMFpps")]

@[inherit_doc exAliceHead]
def exAliceDict (alg : String) : PyDict :=
  [("alg", .str alg), ("enc", .str "A128GCM"), ("apu", .str "QWxpY2U"), ("apv", .str "Qm9i"),
   ("epk", .dict exAliceEpk)]

theorem exAlice_loads : jsonLoads (exAliceHead "ECDH-ES") = .ok (.dict (exAliceDict "ECDH-ES")) := by decide +kernel

theorem exAlice_loads_kw : jsonLoads (exAliceHead "ECDH-ES+A256KW") = .ok (.dict (exAliceDict "ECDH-ES+A256KW")) := by
  decide +kernel

/-- The private key of Bob. -/
def exBob : Key :=
  let m : Mat := .ec (.str "P-256") (.int 1) (.int 1) (.int 38124166010662753100689735609285807169841714722622367731519061366402702420444) (.val .none)
  { exEcKey with mat := m }

/-- The secret of the appendix. -/
def exAliceZ : Bytes := [158, 86, 217, 29, 129, 113, 53, 211, 114, 131, 66, 131, 191, 132, 38, 156, 251, 49, 110, 163,
  218, 128, 106, 72, 246, 218, 167, 121, 140, 254, 144, 196]

theorem exAlice_z : P256.dhZ 38124166010662753100689735609285807169841714722622367731519061366402702420444 (some (58145211479040115275277954845675900219111482369083501218734209153283317647709, 32887647965581045762538086244462430433802648867617166276852962116143797347995)) = .ok exAliceZ := by decide +kernel

theorem exAlice_epk : (ecKeyOfHeader (.dict exAliceEpk)).map (fun k => k.mat) =
    .ok (.ec (.str "P-256") (.int 58145211479040115275277954845675900219111482369083501218734209153283317647709) (.int 32887647965581045762538086244462430433802648867617166276852962116143797347995) (.str "") (.curve P256)) := by decide +kernel

theorem exAlice_agrees (E : Env) (alg : String) {name : String} {n : Nat} {c : Bytes}
    (h : ecdhDeriveFromZ E.H exAliceZ (ascii "Alice") (ascii "Bob") (utf8Encode name) n = .ok c) :
    Agrees E (exAliceDict alg) exBob name n c := by
  have he := exAlice_epk
  cases hk : ecKeyOfHeader (.dict exAliceEpk) with
  | error e => rw [hk] at he; cases he
  | ok k =>
    rw [hk] at he
    simp only [Except.map, Except.ok.injEq] at he
    exact ⟨P256, 38124166010662753100689735609285807169841714722622367731519061366402702420444, _, _, _, exAliceZ, ascii "Alice", ascii "Bob", ⟨_, k, _, _, rfl, hk, he⟩,
      ⟨_, _, _, _, _, rfl, rfl, by decide⟩, ⟨_, _, rfl, rfl, rfl⟩, exAlice_z, ⟨_, rfl, by decide +kernel⟩, ⟨_, rfl, by decide +kernel⟩, h⟩

example : ∃ iv ct tag, (Jwe.decrypt stdEnv {} exRnd (b64e (utf8Encode (exAliceHead "ECDH-ES")) ++ 46 :: b64e [] ++ 46 :: b64e iv ++
    46 :: b64e ct ++ 46 :: b64e tag) [exBob]).1 = .ok (ascii "hello") := by
  obtain ⟨c, hc, hcl⟩ := derive_total stdEnv_standard.shaLaw exAliceZ (utf8Encode "A128GCM") (apu := ascii "Alice")
    (apv := ascii "Bob") (by decide) (by decide) (n := 128) (by decide)
  obtain ⟨ct, tag, h⟩ := rfcContent_exists (E := stdEnv) stdEnv_standard.aesLaw .g128 (key := c)
    (iv := List.replicate 12 9) hcl rfl (.inl rfl) (pt := ascii "hello")
    (aad := b64e (utf8Encode (exAliceHead "ECDH-ES"))) (by decide) (by decide +kernel)
  exact ⟨_, ct, tag, C114_direct stdEnv_standard.aesLaw (h := exAliceDict "ECDH-ES") ⟨rfl, exAliceHead "ECDH-ES", rfl, exAlice_loads⟩
    .g128 rfl rfl (.inl ⟨by simp, rfl⟩) (.inr ⟨rfl, .inl ⟨rfl, rfl⟩⟩)
    ⟨[], [], rfl, ⟨.inr (.inl rfl), by decide, by decide, by decide⟩, by simp⟩ (exAlice_agrees _ _ hc) h (.inl rfl)⟩

example : ∃ ek iv ct tag, (Jwe.decrypt stdEnv {} exRnd (b64e (utf8Encode (exAliceHead "ECDH-ES+A256KW")) ++ 46 :: b64e ek ++
    46 :: b64e iv ++ 46 :: b64e ct ++ 46 :: b64e tag) [exBob]).1 = .ok (ascii "hello") := by
  obtain ⟨kek, hc, -⟩ := derive_total stdEnv_standard.shaLaw exAliceZ (utf8Encode "A256KW") (apu := ascii "Alice")
    (apv := ascii "Bob") (by decide) (by decide) (n := 256) (by decide)
  obtain ⟨ct, tag, h⟩ := rfcContent_exists (E := stdEnv) stdEnv_standard.aesLaw .g128 (key := List.replicate 16 3)
    (iv := List.replicate 12 9) rfl rfl (.inl rfl) (pt := ascii "hello")
    (aad := b64e (utf8Encode (exAliceHead "ECDH-ES+A256KW"))) (by decide) (by decide +kernel)
  exact ⟨_, _, ct, tag, C114_wrap stdEnv_standard.aesLaw stdEnv_standard.shaLaw (h := exAliceDict "ECDH-ES+A256KW")
    ⟨rfl, exAliceHead "ECDH-ES+A256KW", rfl, exAlice_loads_kw⟩
    .a256 rfl rfl (.inl ⟨by simp, rfl⟩) (.inr ⟨rfl, .inl ⟨rfl, rfl⟩⟩)
    ⟨[], [], rfl, ⟨.inr (.inl rfl), by decide, by decide, by decide⟩, by simp⟩ (exAlice_agrees _ _ hc) rfl h (.inl rfl)⟩

/-- A header without `apu`. -/
example (ek iv ct tag : Bytes) := C114_needs stdEnv_standard.aesLaw (o := {}) (rnd := exRnd)
  (token := exForeign "ECDH-ES" "A128GCM" ek iv ct tag) (h := exForeignDict "ECDH-ES" "A128GCM")
  ⟨rfl, exForeignHead "ECDH-ES" "A128GCM", rfl, by decide +kernel⟩ rfl .dir rfl (.inl rfl) [exBob]

end Verif
