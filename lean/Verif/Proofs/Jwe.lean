import Verif.Spec.Jwe
import Verif.Proofs.JwsSign
import Verif.Proofs.JwsJson
import Verif.Props.Gcm
import Verif.Props.CbcHmac
import Verif.Props.KeyWrap
/-
Lemmas for the JWE properties: content encryption round trip, the token text, key selection.
-/

namespace Verif
open Spec

/-! ### Header values through JSON -/

theorem b2sConvD_fst : ∀ {l m : List (String × PyVal)}, b2sConvD l = .ok m →
    m.map Prod.fst = l.map Prod.fst
  | [], m, h => by cases h; rfl
  | (k, v) :: l, m, h => by
    simp only [b2sConvD, Bind.bind] at h
    obtain ⟨v', -, h⟩ := bind_ok_iff.mp h
    obtain ⟨l', h2, h⟩ := bind_ok_iff.mp h
    cases h
    simp [b2sConvD_fst h2]

mutual
theorem b2sConv_makes_jsonable : ∀ {v w : PyVal}, Distinct v → b2sConv v = .ok w →
    w.jsonable = true
  | .none, _, _, h => by cases h; rfl
  | .bool _, _, _, h => by cases h; rfl
  | .int _, _, _, h => by cases h; rfl
  | .str _, _, _, h => by cases h; rfl
  | .float _, _, _, h => by cases h
  | .bytes b, w, _, h => by
    simp only [b2sConv] at h
    cases hb : utf8Decode b with
    | error e => rw [hb] at h; cases h
    | ok s => rw [hb] at h; cases h; rfl
  | .list l, w, hd, h => by
    simp only [b2sConv] at h
    cases hb : b2sConvL l with
    | error e => rw [hb] at h; cases h
    | ok s =>
      rw [hb] at h; cases h
      simp only [PyVal.jsonable]
      exact b2sConvL_makes_jsonable (by simpa [Distinct] using hd) hb
  | .dict l, w, hd, h => by
    simp only [b2sConv] at h
    cases hb : b2sConvD l with
    | error e => rw [hb] at h; cases h
    | ok s =>
      rw [hb] at h; cases h
      simp only [Distinct] at hd
      simp only [PyVal.jsonable, b2sConvD_fst hb, hd.1, decide_true, Bool.true_and]
      exact b2sConvD_makes_jsonable hd.2 hb
theorem b2sConvL_makes_jsonable : ∀ {v w : List PyVal}, DistinctL v → b2sConvL v = .ok w →
    PyVal.jsonableL w = true
  | [], _, _, h => by cases h; rfl
  | v :: l, w, hd, h => by
    simp only [b2sConvL, Bind.bind] at h
    obtain ⟨v', h1, h⟩ := bind_ok_iff.mp h
    obtain ⟨l', h2, h⟩ := bind_ok_iff.mp h
    cases h
    simp only [DistinctL] at hd
    simp [PyVal.jsonableL, b2sConv_makes_jsonable hd.1 h1, b2sConvL_makes_jsonable hd.2 h2]
theorem b2sConvD_makes_jsonable : ∀ {v w : List (String × PyVal)}, DistinctD v →
    b2sConvD v = .ok w → PyVal.jsonableD w = true
  | [], _, _, h => by cases h; rfl
  | (k, v) :: l, w, hd, h => by
    simp only [b2sConvD, Bind.bind] at h
    obtain ⟨v', h1, h⟩ := bind_ok_iff.mp h
    obtain ⟨l', h2, h⟩ := bind_ok_iff.mp h
    cases h
    simp only [DistinctD] at hd
    simp [PyVal.jsonableD, b2sConv_makes_jsonable hd.1 h1, b2sConvD_makes_jsonable hd.2 h2]
end

theorem b2sConvD_get? {name : String} : ∀ {l m : List (String × PyVal)}, b2sConvD l = .ok m →
    ∀ v, PyDict.get? l name = some v → ∃ w, b2sConv v = .ok w ∧ PyDict.get? m name = some w
  | [], _, _, _, hv => by simp [PyDict.get?] at hv
  | (k, x) :: l, m, h, v, hv => by
    simp only [b2sConvD, Bind.bind] at h
    obtain ⟨v', h1, h⟩ := bind_ok_iff.mp h
    obtain ⟨l', h2, h⟩ := bind_ok_iff.mp h
    cases h
    unfold PyDict.get? at hv ⊢
    rw [List.lookup_cons] at hv ⊢
    by_cases hk : (name == k) = true
    · simp only [hk] at hv ⊢
      cases hv
      exact ⟨v', h1, rfl⟩
    · simp only [hk] at hv ⊢
      exact b2sConvD_get? h2 v hv

theorem b2sConvD_get?_none {name : String} {l m : List (String × PyVal)} (h : b2sConvD l = .ok m)
    (hv : PyDict.get? l name = none) : PyDict.get? m name = none := by
  rw [get?_none_iff] at hv ⊢
  rwa [b2sConvD_fst h]

/-- An encoded header decodes to the converted header. -/
theorem header_text {h : PyDict} {bh : Bytes} (hd : Distinct (.dict h))
    (hb : b64encodeItem (.dict h) = .ok bh) :
    ∃ hs h', bh = b64e (utf8Encode hs) ∧ jsonLoads hs = .ok (.dict h') ∧ b2sConvD h = .ok h' := by
  simp only [b64encodeItem, Bind.bind] at hb
  obtain ⟨v, h1, hb⟩ := bind_ok_iff.mp hb
  obtain ⟨s, h2, hb2⟩ := bind_ok_iff.mp hb
  have h1' := h1
  simp only [b2sConv] at h1
  cases hc : b2sConvD h with
  | error e => rw [hc] at h1; cases h1
  | ok h' =>
    rw [hc] at h1
    cases h1
    obtain ⟨s', e1, e2⟩ := jsonLoads_dumpsC _ (b2sConv_makes_jsonable hd h1')
    rw [e1] at h2
    cases h2
    exact ⟨_, h', (Except.ok.inj hb2).symm, e2, rfl⟩

/-! ### The token text -/

theorem jweParts_unpack {token s0 : Bytes} {hdr : PyVal} {ek iv ct tag : Bytes}
    (h : JweParts token s0 hdr ek iv ct tag) :
    ∃ hb, Jwt.unpack token = .ok (Jwt.mk hdr [s0, b64e ek, b64e iv, b64e ct, b64e tag]
      [hb, ek, iv, ct, tag]) := by
  obtain ⟨ht, hs, rfl, hj⟩ := h
  refine ⟨utf8Encode hs, ?_⟩
  have := unpack_joinDot hs [ek, iv, ct, tag] hdr (by simp) hj
  rw [ht]
  simpa [joinDot, List.append_assoc] using this

theorem pack_jweParts {j : Jwt} {h : PyDict} (hj : j.headers = .dict h) (hne : h ≠ [])
    (hd : Distinct (.dict h)) {ek : PyVal} {ekb iv ct tag : Bytes} (hek : MsgBytes ek ekb) {t : String}
    (ht : j.pack [ek, .bytes iv, .bytes ct, .bytes tag] = .ok t) :
    ∃ bh h', b64encodeItem (.dict h) = .ok bh ∧ b2sConvD h = .ok h' ∧
      JweParts (utf8Encode t) bh (.dict h') ekb iv ct tag := by
  obtain ⟨bh, bs, h1, h2, h3⟩ := pack_ok hj hne (by simp) ht
  obtain ⟨hs, h', e1, e2, e3⟩ := header_text hd h1
  have h2 := mapM_forall₂.mp h2
  refine ⟨bh, h', h1, e3, ?_, hs, e1, e2⟩
  match bs, h2 with
  | [a, b, c, d], .cons ha (.cons hb (.cons hc (.cons hd .nil))) =>
    cases hb; cases hc; cases hd
    have : a = b64e ekb := by
      rcases hek with ⟨s, rfl, rfl⟩ | rfl <;> cases ha <;> trivial
    subst this
    rw [h3]
    simp [joinDot, List.append_assoc]

theorem jwt_init_is {h : PyDict} {j : Jwt} (hj : Jwt.init h = .ok j)
    (ha : ((PyDict.get? h "alg").getD .none).truthy = true) : j.headers = .dict h := by
  unfold Jwt.init at hj
  split at hj
  · simp at hj
  · simp only [Bind.bind] at hj
    obtain ⟨b, -, hj⟩ := bind_ok_iff.mp hj
    obtain ⟨p, -, hj⟩ := bind_ok_iff.mp hj
    obtain rfl := Except.ok.inj hj
    simp

/-! ### Content encryption -/

theorem gcm_new_reachable {C : BlockCipher} {key : Bytes} {g : Gcm}
    (h : Gcm.new C (bytesToNat key) = .ok g) :
    g.Reachable C (longToBytes (bytesToNat key) 16) ∧ g.prevInit = none := by
  refine ⟨.new h rfl, ?_⟩
  unfold Gcm.new at h
  simp only [Bind.bind] at h
  obtain ⟨_, -, h1⟩ := bind_ok_iff.mp h
  obtain ⟨_, -, h2⟩ := bind_ok_iff.mp h1
  cases h2
  rfl

theorem strIn_str {v : PyVal} {l : List String} (h : strIn v l = true) : ∃ s, v = .str s ∧ s ∈ l := by
  unfold strIn at h
  split at h
  · exact ⟨_, rfl, by simpa using h⟩
  · cases h

/-- Content decryption undoes content encryption. -/
theorem encSetup_roundtrip {E : Env} (hC : E.C.Lawful) (hH : E.H.Lawful) {rnd : JweRnd} {enc msg : PyVal}
    {aad key iv ct tag : Bytes} (hk : key ≠ []) (hi : iv ≠ [])
    (h : encSetup E rnd enc msg aad key iv = .ok (ct, tag)) :
    ∃ m, msg = .bytes m ∧ (isGcmEnc enc = true ∨ isCbcEnc enc = true) ∧
      jweDecrypt E enc key ct aad iv tag = .ok m := by
  unfold encSetup at h
  have hg : generateKeyAndIv rnd enc key iv = .ok (key, iv) := by
    unfold generateKeyAndIv; rw [if_pos ⟨hk, hi⟩]
  simp only [hg, Bind.bind, Except.bind] at h
  unfold jweDecrypt
  split at h
  · rename_i hgcm
    obtain ⟨g, hg1, h⟩ := bind_ok_iff.mp h
    obtain ⟨m, hm, h⟩ := bind_ok_iff.mp h
    obtain ⟨⟨ct', tag'⟩, he, h⟩ := bind_ok_iff.mp h
    cases h
    obtain ⟨hr, hp⟩ := gcm_new_reachable hg1
    have hm : msg = .bytes m := by
      cases msg <;> simp [wantBytes] at hm; rw [hm]
    refine ⟨m, hm, .inl hgcm, ?_⟩
    have hiv : bytesToNat iv < 2 ^ 96 := by
      by_contra hc
      rw [(C45_reuse_refused g _ m aad).1 (.inr (by omega))] at he
      cases he
    have hl : m.length ≤ 16 * 2 ^ 32 := by
      by_contra hc
      rw [C44_too_long hC hr _ hiv (by rw [hp]; simp) m aad (by omega)] at he
      cases he
    obtain ⟨ct2, tag2, e1, -, e2⟩ := C44_round_trip hC hr hr _ hiv (by rw [hp]; simp) m aad hl
    rw [e1] at he
    cases he
    simp only [hgcm, if_true, Bind.bind, Except.bind, hg1, bytesToNat_longToBytes]
    exact e2
  · rename_i hgcm
    split at h
    · rename_i hcbc
      obtain ⟨m, hm, h⟩ := bind_ok_iff.mp h
      have hm : msg = .bytes m := by
        cases msg <;> simp [wantBytes] at hm; rw [hm]
      refine ⟨m, hm, .inr hcbc, ?_⟩
      rw [if_neg hgcm, if_pos hcbc]
      by_cases hb : iv.length ≠ 16 ∨ ∀ p ∈ cbcHmacParams, key.length ≠ p.1
      · rw [(C39_bad_sizes E.C E.H key iv aad m [] hb).1] at h
        cases h
      simp only [not_or, not_forall, not_not] at hb
      obtain ⟨hivl, ⟨n, s, a⟩, hp, hkl⟩ := hb
      have haad : aad.length < 2 ^ 61 := by
        by_contra hc
        have hq : packQ (8 * aad.length) = .error .structError := by
          unfold packQ; rw [if_neg (by omega)]
        unfold aesCbcHmacEncrypt cbcHmacTag at h
        simp only [hq, Bind.bind] at h
        obtain ⟨_, -, h1⟩ := bind_ok_iff.mp h
        obtain ⟨_, -, h2⟩ := bind_ok_iff.mp h1
        cases h2
      obtain ⟨ct2, tag2, e1, -, -, e2⟩ := C39_roundtrip E.C E.H hC hH key iv aad m n s a hp hkl hivl haad
      rw [e1] at h
      cases h
      exact e2
    · cases h

end Verif
