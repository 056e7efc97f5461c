import Verif.Props.JweRsa
import Verif.Props.Jwk
import Verif.Props.Kdf
import Verif.Props.Curves
import Verif.Props.EcMore
/-
C59: JWE with Diffie-Hellman on a NIST curve.
-/

namespace Verif
open Spec

theorem ebind_ok {α β : Type} (a : α) (f : α → PyM β) : Except.bind (.ok a : PyM α) f = f a := rfl

/-- `v` is the name of curve `C`, as text or as bytes. -/
def Spec.NamesCurve (C : NistCurve) (v : PyVal) : Prop :=
  ∃ s, (C, s) ∈ [(P256, "P-256"), (P384, "P-384"), (P521, "P-521")] ∧ (v = .str s ∨ v = .bytes (ascii s))

/-- The key object has the public point `(X, Y)` of curve `C`. -/
def Spec.HasPoint (C : NistCurve) (X Y : Int) (k : Key) : Prop :=
  ∃ crv d c, NamesCurve C crv ∧ k.mat = .ec crv (.int X) (.int Y) d c

/-- The key object has the private number `D`. -/
def Spec.HasScalar (D : Nat) (k : Key) : Prop := ∃ crv x y c, k.mat = .ec crv x y (.int D) c

/-- A key pair of curve `C` in one object, with labels that are real Python values. -/
def Spec.EphemeralKey (C : NistCurve) (k : Key) : Prop :=
  ∃ crv x y d, k.mat = .ec crv (.int x) (.int y) (.int (d : Nat)) (.curve C) ∧
    C.publicKeyFor d = some (x, y) ∧
    Distinct k.kty ∧ Distinct k.use ∧ Distinct k.kid ∧ Distinct k.alg

theorem Spec.NamesCurve.byVal {C : NistCurve} {v : PyVal} (h : NamesCurve C v) : curveByVal v = .ok C := by
  obtain ⟨s, hs, hv⟩ := h
  simp only [List.mem_cons, List.not_mem_nil, or_false, Prod.mk.injEq] at hs
  rcases hs with ⟨rfl, rfl⟩ | ⟨rfl, rfl⟩ | ⟨rfl, rfl⟩ <;> rcases hv with rfl | rfl <;>
    simp only [curveByVal, C55_by_name, C55_by_name_bytes] <;> rfl

theorem Spec.NamesCurve.name {C : NistCurve} {v : PyVal} (h : NamesCurve C v) :
    curveByName C.name = .ok C ∧ SoundCurve C := by
  obtain ⟨s, hs, -⟩ := h
  simp only [List.mem_cons, List.not_mem_nil, or_false, Prod.mk.injEq] at hs
  rcases hs with ⟨rfl, rfl⟩ | ⟨rfl, rfl⟩ | ⟨rfl, rfl⟩
  · exact ⟨by rw [show P256.name = "P-256" by decide +kernel, C55_by_name]; rfl, C55_P256⟩
  · exact ⟨by rw [show P384.name = "P-384" by decide +kernel, C55_by_name]; rfl, C55_P384⟩
  · exact ⟨by rw [show P521.name = "P-521" by decide +kernel, C55_by_name]; rfl, C55_P521⟩

theorem longToBase64Val_ok {i : Int} {v : PyVal} (h : longToBase64Val (.int i) = .ok v) :
    ∃ n : Nat, 0 < n ∧ i = n := by
  simp only [longToBase64Val, PyVal.asInt?] at h
  split at h
  · cases h
  · rename_i hi
    refine ⟨i.toNat, ?_, by omega⟩
    rcases Nat.eq_zero_or_pos i.toNat with h0 | h0
    · rw [h0, C05_zero] at h; cases h
    · exact h0

/-- Serializing the public half of an EC key: the coordinates are positive. -/
theorem ec_serialize_ok {k : Key} {crv d : PyVal} {x y : Int} {C : NistCurve} {v : PyVal}
    (hm : k.mat = .ec crv (.int x) (.int y) d (.curve C)) (h : k.serialize false = .ok v) :
    ∃ X Y : Nat, 0 < X ∧ 0 < Y ∧ x = X ∧ y = Y ∧ v = .dict (ecDict k C X Y none) := by
  have h0 := h
  simp only [Key.serialize, hm, ecSerialize, KObj.truthy, Bool.true_eq_false, and_false, if_false,
    Bind.bind, Except.bind] at h
  split at h
  · cases h
  · rename_i xs hxs
    split at h
    · cases h
    · rename_i ys hys
      obtain ⟨X, pX, rfl⟩ := longToBase64Val_ok hxs
      obtain ⟨Y, pY, rfl⟩ := longToBase64Val_ok hys
      rw [longToBase64Val_pos pX] at hxs
      rw [longToBase64Val_pos pY] at hys
      cases hxs
      cases hys
      simp only [Bool.false_eq_true, false_and, if_false, Except.map] at h
      cases h
      exact ⟨X, Y, pX, pY, rfl, rfl, rfl⟩

/-- Loading a public EC key from a dictionary with the three members as text. -/
theorem ecKeyNew_dict {kw : PyDict} {C : NistCurve} {X Y : Nat} (px : 0 < X) (py : 0 < Y)
    (gx : PyDict.get? kw "x" = some (.str (uintTxt X))) (gy : PyDict.get? kw "y" = some (.str (uintTxt Y)))
    (gc : PyDict.get? kw "crv" = some (.str C.name)) (gd : PyDict.get? kw "d" = none)
    (gs : PyDict.get? kw "self" = none) (hc : curveByName C.name = .ok C) :
    ∃ k, ecKeyNew kw (.val .none) (.val .none) 0 = .ok k ∧
      k.mat = .ec (.str C.name) (.int X) (.int Y) (.str "") (.curve C) := by
  have kx : kwGet kw "x" (.str "") = .str (uintTxt X) := by simp [kwGet, gx]
  have ky : kwGet kw "y" (.str "") = .str (uintTxt Y) := by simp [kwGet, gy]
  have kc : kwGet kw "crv" (.str "") = .str C.name := by simp [kwGet, gc]
  have kd : kwGet kw "d" (.str "") = .str "" := by simp [kwGet, gd]
  have ks : PyDict.has kw "self" = false := by simp [PyDict.has, gs]
  have hn : (PyVal.str C.name).truthy = true := by
    simpa [PyVal.truthy] using curveByName_ne hc
  have hnone : (KObj.val PyVal.none).truthy = false := rfl
  refine ⟨{ keyCommon "EC" ecArgs kw (.val .none) (.ec (.str C.name) (.str (uintTxt X)) (.str (uintTxt Y))
    (.str "") (.val .none)) with mat := .ec (.str C.name) (.int X) (.int Y) (.str "") (.curve C) }, ?_, rfl⟩
  unfold ecKeyNew
  simp only [ks, Bool.false_eq_true, if_false, kx, ky, kc, kd, hn, hnone, and_self, if_true,
    verifyLongs, txt_str_truthy px, isInt, listLong, Bool.true_eq_false, decide_false, Bool.or_self,
    Bind.bind, Except.bind, ecDeserialize, ecCoord_txt px, ecCoord_txt py, curveByVal, hc]
  rfl

theorem distinct_ecDict {k : Key} {C : NistCurve} {X Y : Nat} (h1 : Distinct k.kty) (h2 : Distinct k.use)
    (h3 : Distinct k.kid) (h4 : Distinct k.alg) : Distinct (.dict (ecDict k C X Y none)) := by
  unfold ecDict optSet
  refine distinct_set (distinct_set (distinct_set ?_ trivial) trivial) trivial
  unfold Key.common
  simp only [Distinct]
  constructor
  · split <;> split <;> split <;> simp
  · rw [distinctD_iff]
    intro p hp
    simp only [List.mem_append, List.mem_singleton] at hp
    rcases hp with ((rfl | hp) | hp) | hp
    · exact h1
    · split at hp <;> simp at hp; subst hp; exact h2
    · split at hp <;> simp at hp; subst hp; exact h3
    · split at hp <;> simp at hp; subst hp; exact h4

/-- The ephemeral key is a key pair of the curve. -/
theorem ephemeral_ok {o : Jwe} {rnd : JweRnd} {C : NistCurve} {e : Key}
    (he : ∀ k, o.epk = some k → EphemeralKey C k) (h : o.ephemeral rnd C = .ok e) : EphemeralKey C e := by
  unfold Jwe.ephemeral at h
  split at h
  · rename_i k hk
    split at h
    · cases h; exact he _ hk
    · cases h
  · split at h
    · cases h
    · have hk : ecKeyNew [] (.val .none) (.val .none) 0 = .ok
          (keyCommon "EC" ecArgs [] (.val .none) (.ec (.str "") (.str "") (.str "") (.str "") (.val .none))) := rfl
      rw [hk] at h
      simp only [Bind.bind, Except.bind, ecLoadKey] at h
      split at h
      · rename_i d x y hkp
        cases h
        have h2 : C.publicKeyFor (C.keyPair rnd.eph).1 = (C.keyPair rnd.eph).2 := rfl
        rw [hkp] at h2
        exact ⟨.str "", x, y, d, rfl, h2, trivial, trivial, trivial, trivial⟩
      · cases h

/-- The text of bytes that are base64. -/
theorem b2sConv_b64e {b : Bytes} {w : PyVal} (h : b2sConv (.bytes (b64e b)) = .ok w) :
    ∃ s, w = .str s ∧ utf8Encode s = b64e b := by
  obtain ⟨s, h1, h2⟩ : ∃ s, utf8Decode (b64e b) = .ok s ∧ utf8Encode s = b64e b :=
    utf8Decode_ascii (b64e_ascii b)
  simp only [b2sConv, h1, Except.map] at h
  cases h
  exact ⟨s, rfl, h2⟩

/-- What is agreed from the secret `z`: the content key is derived, or wrapped under a derived key. -/
def EcAgreed (E : Env) (alg : String) (enc : PyVal) (z apu apv cek0 cek : Bytes) (ek : PyVal) : Prop :=
  (alg = "ECDH-ES" ∧ ∃ n encB, keylen enc = .ok (n, encB) ∧
      ecdhDeriveFromZ E.H z apu apv encB n = .ok cek ∧ ek = .str "") ∨
  (alg ≠ "ECDH-ES" ∧ ∃ post n kek jek, ecKwAlg (.str alg) = some (post, n) ∧
      ecdhDeriveFromZ E.H z apu apv post n = .ok kek ∧ aesWrapKey E.C kek cek = .ok jek ∧
      ek = .bytes jek ∧ cek = cek0)

theorem ecdhDerive_ok {E : Env} {C : NistCurve} {d : Nat} {x y : Int} {apu apv alg out : Bytes} {n : Nat}
    (h : ecdhDerive E (.curve C) (.int d) (.int x) (.int y) (some apu) (some apv) alg n = .ok out) :
    ∃ z, C.dhZ d (some (x, y)) = .ok z ∧ ecdhDeriveFromZ E.H z apu apv alg n = .ok out := by
  simp only [ecdhDerive, dhScalar, PyVal.asInt?, Bind.bind, esPub] at h
  rw [if_neg (by omega)] at h
  simp only [Except.bind, Int.toNat_natCast] at h
  split at h
  · cases h
  · exact ⟨_, by assumption, h⟩

theorem ecdhDerive_of {E : Env} {C : NistCurve} {d : Nat} {x y : Int} {apu apv alg z : Bytes} {n : Nat}
    (hz : C.dhZ d (some (x, y)) = .ok z) :
    ecdhDerive E (.curve C) (.int d) (.int x) (.int y) (some apu) (some apv) alg n =
      ecdhDeriveFromZ E.H z apu apv alg n := by
  simp only [ecdhDerive, dhScalar, PyVal.asInt?, Bind.bind, esPub]
  rw [if_neg (by omega)]
  simp only [Except.bind, Int.toNat_natCast, hz]

/-- What `enc_setup` does for a recipient's key, with the origin of its inputs. -/
theorem ecEncSetup_form {E : Env} {o : Jwe} {args : PyDict} {rnd : JweRnd} {k : Key} {C : NistCurve}
    {X Y : Int} {cek iv : Bytes} {ek : PyVal} {params : PyDict} {alg : String}
    (hk : HasPoint C X Y k) (he : ∀ e, o.epk = some e → EphemeralKey C e)
    (halg : PyDict.get? args "alg" = some (.str alg))
    (h : o.ecEncSetup E args rnd k = .ok (cek, ek, iv, params)) :
    ∃ apu apv e, ∃ ex ey ed : Nat, ∃ enc cek0 z, 0 < ex ∧ 0 < ey ∧
      C.publicKeyFor ed = some ((ex : Int), (ey : Int)) ∧ Distinct (.dict (ecDict e C ex ey none)) ∧
      params = [("apu", .bytes (b64e apu)), ("apv", .bytes (b64e apv)), ("epk", .dict (ecDict e C ex ey none))] ∧
      PyDict.get? args "enc" = some enc ∧
      generateKeyAndIv rnd enc (storedBytes o.dict "cek") (storedBytes o.dict "iv") = .ok (cek0, iv) ∧
      C.dhZ ed (some (X, Y)) = .ok z ∧ EcAgreed E alg enc z apu apv cek0 cek ek ∧
      partyParam o.dict "apu" rnd.apu = .ok apu ∧ partyParam o.dict "apv" rnd.apv = .ok apv ∧
      o.ephemeral rnd C = .ok e ∧ HasScalar ed e := by
  obtain ⟨crv, d, c, hn, hmat⟩ := hk
  unfold Jwe.ecEncSetup at h
  simp only [Bind.bind] at h
  obtain ⟨apu, hapu, h1⟩ := bind_ok_iff.mp h
  obtain ⟨apv, hapv, h2⟩ := bind_ok_iff.mp h1
  simp only [ecAttrs, hmat, ebind_ok, hn.byVal] at h2
  obtain ⟨e, hee, h3⟩ := bind_ok_iff.mp h2
  obtain ⟨ser, hser, h4⟩ := bind_ok_iff.mp h3
  obtain ⟨enc, henc, h5⟩ := bind_ok_iff.mp h4
  obtain ⟨⟨cek0, iv0⟩, hgen, h6⟩ := bind_ok_iff.mp h5
  obtain ⟨crv', x, y, ed, hem, hpub, d1, d2, d3, d4⟩ := ephemeral_ok he hee
  obtain ⟨ex, ey, px, py, rfl, rfl, rfl⟩ := ec_serialize_ok hem hser
  have henc' : PyDict.get? args "enc" = some enc := by
    unfold attrOf at henc
    split at henc
    · cases henc; assumption
    · cases henc
  simp only [hem, halg, Option.getD_some, ebind_ok] at h6
  refine ⟨apu, apv, e, ex, ey, ed, enc, cek0, ?_⟩
  split at h6
  · rename_i ha
    cases ha
    obtain ⟨⟨n, encB⟩, hkl, h7⟩ := bind_ok_iff.mp h6
    obtain ⟨cek', hd, h8⟩ := bind_ok_iff.mp h7
    cases h8
    obtain ⟨z, hz, hdz⟩ := ecdhDerive_ok hd
    exact ⟨z, px, py, hpub, distinct_ecDict d1 d2 d3 d4, rfl, henc', hgen, hz,
      .inl ⟨rfl, n, encB, hkl, hdz, rfl⟩, hapu, hapv, hee, crv', _, _, _, hem⟩
  · rename_i ha
    split at h6
    · rename_i post n hkw
      obtain ⟨kek, hd, h7⟩ := bind_ok_iff.mp h6
      obtain ⟨jek, hj, h8⟩ := bind_ok_iff.mp h7
      cases h8
      obtain ⟨z, hz, hdz⟩ := ecdhDerive_ok hd
      exact ⟨z, px, py, hpub, distinct_ecDict d1 d2 d3 d4, rfl, henc', hgen, hz,
        .inr ⟨fun h => ha (by rw [h]), post, n, kek, jek, hkw, hdz, hj, rfl, rfl⟩,
        hapu, hapv, hee, crv', _, _, _, hem⟩
    · cases h6

/-- What `enc_setup` does for a recipient's key. -/
theorem ecEncSetup_ok {E : Env} {o : Jwe} {args : PyDict} {rnd : JweRnd} {k : Key} {C : NistCurve}
    {X Y : Int} {cek iv : Bytes} {ek : PyVal} {params : PyDict} {alg : String}
    (hk : HasPoint C X Y k) (he : ∀ e, o.epk = some e → EphemeralKey C e)
    (halg : PyDict.get? args "alg" = some (.str alg))
    (h : o.ecEncSetup E args rnd k = .ok (cek, ek, iv, params)) :
    ∃ apu apv e, ∃ ex ey ed : Nat, ∃ enc cek0 z, 0 < ex ∧ 0 < ey ∧
      C.publicKeyFor ed = some ((ex : Int), (ey : Int)) ∧ Distinct (.dict (ecDict e C ex ey none)) ∧
      params = [("apu", .bytes (b64e apu)), ("apv", .bytes (b64e apv)), ("epk", .dict (ecDict e C ex ey none))] ∧
      PyDict.get? args "enc" = some enc ∧
      generateKeyAndIv rnd enc (storedBytes o.dict "cek") (storedBytes o.dict "iv") = .ok (cek0, iv) ∧
      C.dhZ ed (some (X, Y)) = .ok z ∧ EcAgreed E alg enc z apu apv cek0 cek ek := by
  obtain ⟨apu, apv, e, ex, ey, ed, enc, cek0, z, h1, h2, h3, h4, h5, h6, h7, h8, h9, -⟩ :=
    ecEncSetup_form hk he halg h
  exact ⟨apu, apv, e, ex, ey, ed, enc, cek0, z, h1, h2, h3, h4, h5, h6, h7, h8, h9⟩

theorem get?_update_none {d e : PyDict} {n : String} (hn : (e.map Prod.fst).Nodup)
    (h : PyDict.get? e n = none) : PyDict.get? (PyDict.update d e) n = PyDict.get? d n := by
  rw [get?_update e d hn n, Merged, h]

theorem get?_update_some {d e : PyDict} {n : String} {v : PyVal} (hn : (e.map Prod.fst).Nodup)
    (h : PyDict.get? e n = some v) : PyDict.get? (PyDict.update d e) n = some v := by
  rw [get?_update e d hn n, Merged, h]

/-- What `JWE_EC.encrypt` puts into the token. -/
theorem ecEncrypt_ok {E : Env} {o : Jwe} {rnd : JweRnd} {cek iv ekb : Bytes} {ek : PyVal} {params : PyDict}
    {kid : Option PyVal} {t : String} {alg : String}
    (halg : PyDict.get? o.dict "alg" = some (.str alg)) (hne : alg ≠ "")
    (hd : Distinct (.dict o.dict)) (hj : ∀ v, o.jwk = some (.other v) → Distinct v)
    (hk : ∀ v, kid = some v → Distinct v) (hp : ∀ p ∈ params, Distinct p.2) (hn : (params.map Prod.fst).Nodup)
    (pa : PyDict.get? params "alg" = none) (pe : PyDict.get? params "enc" = none) (hek : MsgBytes ek ekb)
    (h : o.ecEncrypt E rnd cek ek iv params kid = .ok t) :
    ∃ enc bh h' ct tag, PyDict.get? o.dict "enc" = some enc ∧
      JweParts (utf8Encode t) bh (.dict h') ekb iv ct tag ∧
      b2sConvD (jwencArgs (PyDict.update (withKid o.dict kid) params) o.jwk) = .ok h' ∧
      encSetup E rnd enc (asBytes o.msg) bh cek iv = .ok (ct, tag) := by
  unfold Jwe.ecEncrypt at h
  simp only [Bind.bind] at h
  obtain ⟨jwe, hjwe, h1⟩ := bind_ok_iff.mp h
  obtain ⟨enc, henc, h2⟩ := bind_ok_iff.mp h1
  obtain ⟨hdr, hhdr, h3⟩ := bind_ok_iff.mp h2
  obtain ⟨⟨ct, tag⟩, hes, h4⟩ := bind_ok_iff.mp h3
  have ha : PyDict.get? (PyDict.update (withKid o.dict kid) params) "alg" = some (.str alg) := by
    rw [get?_update_none hn pa, get?_withKid (by decide), halg]
  have hhd := jwencNew_ok hjwe (by rw [ha]; simp [PyVal.truthy, hne])
  have henc' : PyDict.get? o.dict "enc" = some enc := by
    simp only [PyVal.getItem] at henc
    rw [get?_update_none hn pe, get?_withKid (by decide)] at henc
    split at henc
    · rename_i hx; cases henc; exact hx
    · cases henc
  have hne' : jwencArgs (PyDict.update (withKid o.dict kid) params) o.jwk ≠ [] :=
    ne_nil_of_get? (n := "alg") (by rw [get?_jwencArgs (by decide)]; exact ha)
  obtain ⟨bh, h', e1, e2, e3⟩ := pack_jweParts hhd hne'
    (distinct_jwencArgs (distinct_update (distinct_withKid hd hk) hp) hj) hek h4
  have : hdr = bh := by
    unfold Jwt.b64EncodeHeader at hhdr
    rw [hhd, e1] at hhdr
    cases hhdr; rfl
  subst this
  exact ⟨enc, hdr, h', ct, tag, henc', e3, e2, hes⟩

/-- What `dec_setup` recovers. -/
theorem ecDecSetup_recovers {E : Env} {j : Jwt} {s0 ek iv ct tag hb : Bytes} {h' : PyDict} {alg : String} {enc : PyVal}
    (hj : j = Jwt.mk (.dict h') [s0, b64e ek, b64e iv, b64e ct, b64e tag] [hb, ek, iv, ct, tag])
    (hA : PyDict.get? h' "alg" = some (.str alg)) (hE : PyDict.get? h' "enc" = some enc)
    {apu apv : Bytes} {su sv : String}
    (hu : PyDict.get? h' "apu" = some (.str su)) (hu' : utf8Encode su = b64e apu)
    (hv : PyDict.get? h' "apv" = some (.str sv)) (hv' : utf8Encode sv = b64e apv)
    {d : PyDict} (hP : PyDict.get? h' "epk" = some (.dict d)) {C : NistCurve} {X Y : Nat} (px : 0 < X) (py : 0 < Y)
    (gx : PyDict.get? d "x" = some (.str (uintTxt X))) (gy : PyDict.get? d "y" = some (.str (uintTxt Y)))
    (gc : PyDict.get? d "crv" = some (.str C.name)) (gd : PyDict.get? d "d" = none)
    (gs : PyDict.get? d "self" = none) (gk : PyDict.get? d "key" = none) (gu : PyDict.get? d "curve" = none)
    (hc : curveByName C.name = .ok C) {k : Key} {D : Nat} (hk : HasScalar D k) {z : Bytes}
    (hz : C.dhZ D (some ((X : Int), (Y : Int))) = .ok z) :
    ecDecSetup E j k =
      if alg = "ECDH-ES" then do
        let (n, encB) ← keylen enc
        let cek ← ecdhDeriveFromZ E.H z apu apv encB n
        .ok (cek, iv, ct, tag)
      else match ecKwAlg (.str alg) with
        | some (post, n) => do
          let kek ← ecdhDeriveFromZ E.H z apu apv post n
          let cek ← aesUnwrapKey E.C kek ek
          .ok (cek, iv, ct, tag)
        | none => .error .generic := by
  obtain ⟨k', hk', hm'⟩ := ecKeyNew_dict px py gx gy gc gd gs hc
  obtain ⟨crv, x, y, c, hkm⟩ := hk
  subst hj
  have h1 : headerEpk (.dict h') = .ok (.dict d) := by
    simp [headerEpk, PyVal.contains, PyVal.getItem, PyDict.has, hP, gc, Bind.bind, Except.bind]
  have h2 : ecKeyOfHeader (.dict d) = .ok k' := by
    simp only [ecKeyOfHeader, kwGet, gk, gu, Option.getD_none, hk']
  have hpar : ∀ n s b, PyDict.get? h' n = some (.str s) → utf8Encode s = b64e b →
      headerParty (.dict h') n = .ok (some b) := by
    intro n s b hn hs
    simp [headerParty, PyVal.contains, PyVal.getItem, PyDict.has, hn, hs, Bind.bind, Except.bind,
      C01_roundtrip, Except.map]
  have h3 : headerKeylen (.dict h') = keylen enc := by
    simp [headerKeylen, PyVal.getItem, hE]
  unfold ecDecSetup
  simp only [Jwt.partAt, List.getElem?_cons_succ, List.getElem?_cons_zero, h1, h2, hpar _ _ _ hu hu',
    hpar _ _ _ hv hv', h3, PyVal.getItem, hA, ecAttrs, hm', hkm, Bind.bind, ebind_ok, ecdhDerive_of hz,
    PyVal.str.injEq]
  rfl

/-- The derived key is not empty. -/
theorem derived_ne {H : Hashes} (hH : H.Lawful) {z apu apv alg out : Bytes} {n : Nat} (hn : 0 < n)
    (hn' : n ≤ 512) (h : ecdhDeriveFromZ H z apu apv alg n = .ok out) : out ≠ [] := by
  unfold ecdhDeriveFromZ at h
  simp only [Bind.bind] at h
  obtain ⟨oi, -, h⟩ := bind_ok_iff.mp h
  obtain ⟨out', h1, h2, h3, -⟩ := C41_concat H hH z oi n (by unfold dkBytesOf; omega)
  rw [h] at h1
  cases h1
  rintro rfl
  simp at h3
  omega

theorem keylen_ok {enc : PyVal} {n : Nat} {b : Bytes} (h : keylen enc = .ok (n, b)) : 0 < n ∧ n ≤ 512 := by
  unfold keylen at h
  split at h
  · rename_i s
    split at h
    · rename_i n' hs
      cases h
      have hmem : (s, n) ∈ keylenTable := by
        rw [List.lookup_eq_some_iff] at hs
        obtain ⟨l1, l2, hl, -⟩ := hs
        rw [hl]; simp
      simp only [keylenTable, List.mem_cons, Prod.mk.injEq, List.not_mem_nil, or_false] at hmem
      omega
    · cases h
  · cases h
  · cases h
  · cases h

/-- The family of an algorithm: Diffie-Hellman of either kind. -/
def Spec.IsAgreement : KeyMgmt → Prop
  | .direct | .agreeWrap _ => True
  | _ => False

/-- **C59.** What `JWE.encrypt` makes for the public point of a recipient is decrypted to the same
message with the recipient's private number: for every curve, message, ephemeral key (generated or
supplied), whatever the other keys, parameters and random values. -/
theorem C59_roundtrip {E : Env} (hC : E.C.Lawful) (hH : E.H.Lawful) {o : Jwe} {rnd : JweRnd}
    (hr : RndLengths rnd) {keys : List Key} {cek iv : Bytes} {kid : Option PyVal} {t : String}
    {alg : String} {m : KeyMgmt} (halg : PyDict.get? o.dict "alg" = some (.str alg))
    (hm : MgmtName alg m) (hma : IsAgreement m) (hv : RealValues o keys kid)
    (hcek : ∀ b, PyDict.get? o.dict "cek" = some (.bytes b) → b.length % 8 = 0 ∧ b.length < 2 ^ 61)
    (h : (o.encrypt E rnd keys cek iv kid).1 = .ok t) :
    ∃ l wk k, EffKeys o.toJwx keys l ∧ SignKid o.toJwx wk ∧ FirstPicked m alg wk l k ∧
      ∀ (C : NistCurve) X Y (D : Nat), HasPoint C X Y k → (∀ e, o.epk = some e → EphemeralKey C e) →
        C.publicKeyFor D = some (X, Y) → ∃ msg, MsgBytes o.msg msg ∧
      ∀ (o2 : Jwe) rnd2 keys2 l2 wk2 k2, HasScalar D k2 →
        EffKeys o2.toJwx keys2 l2 → SignKid o2.toJwx wk2 → FirstPicked m alg wk2 l2 k2 →
        (o2.decrypt E rnd2 (utf8Encode t) keys2).1 = .ok msg := by
  obtain ⟨l, wk, k, c, heff, hsk, hf, hw⟩ := jwe_encrypt_ok halg hm h
  obtain ⟨hne, hnn, -⟩ := mgmt_keytype hm
  refine ⟨l, wk, k, heff, hsk, hf, ?_⟩
  intro C X Y D hk hepk hpubD
  have hkind : jweKind (.str alg) = .ok .ec := by
    rw [mgmt_kind hm]; cases m <;> first | rfl | cases hma
  unfold Jwe.encryptWith at hw
  rw [hkind] at hw
  simp only [Bind.bind, ebind_ok] at hw
  obtain ⟨⟨cek', ek, iv', params⟩, hsetup, hw1⟩ := bind_ok_iff.mp hw
  obtain ⟨_, -, hw2⟩ := bind_ok_iff.mp hw1
  obtain ⟨_, -, hw3⟩ := bind_ok_iff.mp hw2
  obtain ⟨t', ht', hw4⟩ := bind_ok_iff.mp hw3
  cases hw4
  have hkl : k ∈ l := by obtain ⟨pre, post, rfl, -⟩ := hf; simp
  have hsd : Distinct (.dict o.symEncrypter.dict) := distinct_initFold hv.dict _ _ distinct_nil
  have hsa : PyDict.get? o.symEncrypter.dict "alg" = some (.str alg) := get?_initFold_alg _ _ halg _
  have hjk : (o.symEncrypter.setKid k).jwk = o.jwk := by
    unfold Jwe.setKid; split <;> rfl
  have hmsg : (o.symEncrypter.setKid k).msg = o.msg := by
    unfold Jwe.setKid; split <;> rfl
  obtain ⟨apu, apv, e, ex, ey, ed, enc, cek0, z, px, py, hpub, hdist, rfl, henc, hgen, hz, hagr⟩ :=
    ecEncSetup_ok hk hepk hsa hsetup
  obtain ⟨hc1, hc2, hc3⟩ := generate_ok hr hgen
  obtain ⟨ekb, hekb⟩ : ∃ ekb, MsgBytes ek ekb := by
    rcases hagr with ⟨-, _, _, -, -, rfl⟩ | ⟨-, _, _, _, jek, -, -, -, rfl, -⟩
    · exact ⟨_, .inl ⟨_, rfl, rfl⟩⟩
    · exact ⟨_, .inr rfl⟩
  obtain ⟨enc1, bh, h', ct, tag, henc1, hparts, hh', hes⟩ :=
    ecEncrypt_ok (by rw [get?_setKid (by decide)]; exact hsa) hne
      (distinct_setKid hsd (hv.key_kid heff hkl)) (by rw [hjk]; exact hv.jwk) hv.kid (by
        intro p hp
        simp only [List.mem_cons, List.not_mem_nil, or_false] at hp
        rcases hp with rfl | rfl | rfl
        · trivial
        · trivial
        · exact hdist) (by simp) rfl rfl hekb ht'
  rw [get?_setKid (by decide), henc] at henc1
  cases henc1
  have hcne : cek' ≠ [] := by
    rcases hagr with ⟨-, n, encB, hkl, hder, -⟩ | ⟨-, _, _, _, _, -, -, -, -, rfl⟩
    · exact derived_ne hH (keylen_ok hkl).1 (keylen_ok hkl).2 hder
    · exact hc1
  obtain ⟨mb, hmb, hfam, hdec⟩ := encSetup_roundtrip hC hH hcne hc2 hes
  rw [hmsg] at hmb
  refine ⟨mb, asBytes_msg hmb, ?_⟩
  intro o2 rnd2 keys2 l2 wk2 k2 hk2 heff2 hsk2 hf2
  obtain ⟨encs, rfl, hencs⟩ := enc_is_str hfam
  -- the header as it comes back
  have hback : ∀ n v, n ≠ "kid" → n ≠ "jwk" → PyDict.get? [("apu", PyVal.bytes (b64e apu)),
      ("apv", .bytes (b64e apv)), ("epk", .dict (ecDict e C ex ey none))] n = none →
      PyDict.get? o.symEncrypter.dict n = some v → ∃ w, b2sConv v = .ok w ∧ PyDict.get? h' n = some w := by
    intro n v h1 h2 h3 h4
    exact b2sConvD_get? hh' v (by
      rw [get?_jwencArgs h2, get?_update_none (by simp) h3, get?_withKid h1, get?_setKid h1]; exact h4)
  have hpar : ∀ n v, n ≠ "jwk" → PyDict.get? [("apu", PyVal.bytes (b64e apu)),
      ("apv", .bytes (b64e apv)), ("epk", .dict (ecDict e C ex ey none))] n = some v →
      ∃ w, b2sConv v = .ok w ∧ PyDict.get? h' n = some w := by
    intro n v h2 h3
    exact b2sConvD_get? hh' v (by rw [get?_jwencArgs h2, get?_update_some (by simp) h3])
  have hA : PyDict.get? h' "alg" = some (.str alg) := by
    obtain ⟨w, hw, hw'⟩ := hback "alg" _ (by decide) (by decide) rfl hsa
    cases hw; exact hw'
  have hE : PyDict.get? h' "enc" = some (.str encs) := by
    obtain ⟨w, hw, hw'⟩ := hback "enc" _ (by decide) (by decide) rfl henc
    cases hw; exact hw'
  obtain ⟨w1, hw1, hU⟩ := hpar "apu" _ (by decide) rfl
  obtain ⟨su, rfl, hsu⟩ := b2sConv_b64e hw1
  obtain ⟨w2, hw2, hV⟩ := hpar "apv" _ (by decide) rfl
  obtain ⟨sv, rfl, hsv⟩ := b2sConv_b64e hw2
  obtain ⟨w3, hw3, hP⟩ := hpar "epk" _ (by decide) rfl
  obtain ⟨d', hd', rfl⟩ : ∃ d', b2sConvD (ecDict e C ex ey none) = .ok d' ∧ w3 = .dict d' := by
    simp only [b2sConv] at hw3
    cases hx : b2sConvD (ecDict e C ex ey none) with
    | error _ => rw [hx] at hw3; cases hw3
    | ok d' => rw [hx] at hw3; cases hw3; exact ⟨d', rfl, rfl⟩
  have hsome : ∀ n s, PyDict.get? (ecDict e C ex ey none) n = some (.str s) → PyDict.get? d' n = some (.str s) := by
    intro n s hs
    obtain ⟨w, hw, hw'⟩ := b2sConvD_get? hd' _ hs
    cases hw; exact hw'
  have hnone : ∀ n, PyDict.get? (ecDict e C ex ey none) n = none → PyDict.get? d' n = none :=
    fun n hs => b2sConvD_get?_none hd' hs
  obtain ⟨_, _, _, hn, -⟩ := hk
  obtain ⟨hcn, hsound⟩ := hn.name
  have hzD : C.dhZ D (some ((ex : Int), (ey : Int))) = .ok z := by
    rw [← hpub, (NistCurve.C54_agreement hsound D ed).1, hpubD]; exact hz
  obtain ⟨hb, hun⟩ := jweParts_unpack hparts
  obtain ⟨rest, hd1, hd2⟩ := decrypt_single (E := E) (rnd := rnd2) hun rfl hA hm heff2 hsk2 hf2 []
  have hds := ecDecSetup_recovers (E := E) (k := k2) (D := D) (C := C) rfl hA hE hU hsu hV hsv hP px py
    (hsome "x" _ (by simp [ecDict, get?_optSet, PyDict.get?_set]))
    (hsome "y" _ (by simp [ecDict, get?_optSet, PyDict.get?_set]))
    (hsome "crv" _ (by simp [ecDict, get?_optSet, PyDict.get?_set]))
    (hnone "d" (by simp [ecDict, get?_optSet, PyDict.get?_set, get?_common]))
    (hnone "self" (by simp [ecDict, get?_optSet, PyDict.get?_set, get?_common]))
    (hnone "key" (by simp [ecDict, get?_optSet, PyDict.get?_set, get?_common]))
    (hnone "curve" (by simp [ecDict, get?_optSet, PyDict.get?_set, get?_common]))
    hcn hk2 hzD (s0 := bh) (ek := ekb) (iv := iv') (ct := ct) (tag := tag) (hb := hb)
  have hds' : ecDecSetup E (Jwt.mk (.dict h') [bh, b64e ekb, b64e iv', b64e ct, b64e tag]
      [hb, ekb, iv', ct, tag]) k2 = .ok (cek', iv', ct, tag) := by
    rw [hds]
    rcases hagr with ⟨rfl, n, encB, hkl, hder, -⟩ | ⟨ha, post, n, kek, jek, hkw, hder, hwr, rfl, rfl⟩
    · simp only [if_true, hkl, Bind.bind, ebind_ok, hder]
    · rw [if_neg ha]
      simp only [hkw, Bind.bind, ebind_ok, hder]
      have : ekb = jek := by
        rcases hekb with ⟨_, h, -⟩ | h
        · cases h
        · cases h; rfl
      subst this
      have hok := aesKeyOk_of_wrap hwr
      have hlen : cek'.length % 8 = 0 ∧ cek'.length < 2 ^ 61 := by
        rcases hc3 with hs | ⟨-, hl⟩
        · unfold storedBytes at hs
          split at hs
          · rename_i b hb; subst hs; exact hcek _ hb
          · exact absurd hs hc1
        · simp only [List.mem_cons, List.not_mem_nil, or_false] at hl
          rcases hl with hl | hl | hl | hl | hl <;> rw [hl] <;> norm_num
      obtain ⟨w, e1, -, e2⟩ := C35_roundtrip E.C hC kek cek' 0xa6a6a6a6a6a6a6a6 hok (by norm_num) hlen.1 hlen.2
      have hwj : w = ekb := by
        have : aesWrapKey E.C kek cek' = .ok w := e1
        rw [hwr] at this; cases this; rfl
      subst hwj
      have e2 : aesUnwrapKey E.C kek w = .ok cek' := e2
      simp only [e2, ebind_ok]
  have hfin : ecDecrypt E (Jwt.mk (.dict h') [bh, b64e ekb, b64e iv', b64e ct, b64e tag]
      [hb, ekb, iv', ct, tag]) (cek', iv', ct, tag) = .ok mb := by
    unfold ecDecrypt
    simp only [if_neg hcne, PyVal.getItem, hE, Bind.bind, ebind_ok, Jwt.b64ProtectedHeader,
      List.getElem?_cons_zero, hdec]
  rw [hd2, hd1]
  cases m with
  | wrap n => cases hma
  | rsa p => cases hma
  | direct =>
    simp only [hds', ebind_ok, decryptTry, if_neg hcne, decryptBy, hfin, Except.map]
  | agreeWrap n =>
    simp only [hds', ebind_ok, decryptTry, if_neg hcne, decryptBy, hfin, Except.map]

/-! ### Encryption does succeed -/

theorem jsonEscape_length (c : Char) : (jsonEscape c).length ≤ 12 := by
  unfold jsonEscape
  repeat' split
  all_goals simp [hex4]

theorem jsonStr_length (s : String) : (jsonStr s).length ≤ 12 * s.length + 2 := by
  have h : ∀ l : List Char, (l.flatMap jsonEscape).length ≤ 12 * l.length := by
    intro l
    induction l with
    | nil => simp
    | cons c l ih =>
      have := jsonEscape_length c
      simp only [List.flatMap_cons, List.length_append, List.length_cons]
      omega
  have := h s.toList
  rw [String.length_toList] at this
  unfold jsonStr
  simp only [List.length_cons, List.length_append, List.length_nil]
  omega

theorem utf8Encode_length (s : String) : s.length ≤ (utf8Encode s).length ∧ (utf8Encode s).length ≤ 4 * s.length := by
  rw [← String.length_toList]
  unfold utf8Encode
  induction s.toList with
  | nil => simp
  | cons c l ih =>
    have h1 : 1 ≤ (String.utf8EncodeChar c).length ∧ (String.utf8EncodeChar c).length ≤ 4 := by
      rw [String.length_utf8EncodeChar]
      exact ⟨Char.utf8Size_pos c, Char.utf8Size_le_four c⟩
    simp only [List.flatMap_cons, List.length_append, List.length_cons]
    omega

/-- The text of a number below 256^n. -/
theorem uintTxt_length {X n : Nat} (hX : 0 < X) (hn : X < 256 ^ n) : (uintTxt X).length ≤ (4 * n + 2) / 3 := by
  obtain ⟨s, bs, h1, h2, h3, h4, -⟩ := C05_roundtrip X hX
  have hs : uintTxt X = s := by unfold uintTxt; rw [h1]
  rw [hs]
  have hb : bs.length ≤ n := by
    cases bs with
    | nil => simp
    | cons b bs =>
      by_contra hc
      have hb0 : b ≠ 0 := h4 b (by simp)
      have : 256 ^ bs.length ≤ bytesValue (b :: bs) := by
        have : 1 ≤ b.toNat := by
          rcases Nat.eq_zero_or_pos b.toNat with h | h
          · exact absurd (UInt8.toNat_inj.mp h) hb0
          · exact h
        unfold bytesValue
        simp only [List.map_cons, beValue, List.length_map]
        nlinarith [Nat.pow_pos (n := bs.length) (show 0 < 256 by norm_num)]
      have h256 : 256 ^ n ≤ 256 ^ bs.length := Nat.pow_le_pow_right (by norm_num) (by simp at hc; omega)
      omega
  have := (utf8Encode_length s).1
  rw [(asciiEncode_utf8 h2).1, (C02_length bs).1] at this
  omega

/-- The header of a Diffie-Hellman token. -/
def ecHdr (alg enc : String) (apu apv : PyVal) (C : NistCurve) (X Y : Nat) : PyDict :=
  [("alg", .str alg), ("enc", .str enc), ("apu", apu), ("apv", apv),
   ("epk", .dict [("kty", .str "EC"), ("crv", .str C.name), ("x", .str (uintTxt X)), ("y", .str (uintTxt Y))])]

theorem ecHdr_encode {alg : String} {m : KeyMgmt} (hm : MgmtName alg m) {enc : String} {n i : Nat}
    (he : EncName enc n i) {apu apv : Bytes} (hu : apu.length < 2 ^ 32) (hv : apv.length < 2 ^ 32)
    {C : NistCurve} (hC : C.name.length = 5) {X Y : Nat} (px : 0 < X) (py : 0 < Y) (lx : X < 256 ^ 66)
    (ly : Y < 256 ^ 66) :
    ∃ bh, b64encodeItem (.dict (ecHdr alg enc (.bytes (b64e apu)) (.bytes (b64e apv)) C X Y)) = .ok bh ∧
      bh.length < 2 ^ 61 := by
  obtain ⟨su, h1, h2⟩ := utf8Decode_ascii (b64e_ascii apu)
  obtain ⟨sv, h3, h4⟩ := utf8Decode_ascii (b64e_ascii apv)
  have hc : b2sConv (.dict (ecHdr alg enc (.bytes (b64e apu)) (.bytes (b64e apv)) C X Y)) =
      .ok (.dict (ecHdr alg enc (.str su) (.str sv) C X Y)) := by
    simp [ecHdr, b2sConv, b2sConvD, h1, h3, Bind.bind, Except.bind, Except.map]
  obtain ⟨l, hl, hll⟩ : ∃ l, dumpV [','] [':'] (.dict (ecHdr alg enc (.str su) (.str sv) C X Y)) = .ok l ∧
      l.length ≤ 12 * (su.length + sv.length) + 10000 := by
    refine ⟨_, by simp only [ecHdr, dumpV, dumpD, Bind.bind, ebind_ok]; rfl, ?_⟩
    have hal : alg.length ≤ 20 := by cases hm <;> decide
    have hel : enc.length ≤ 20 := by cases he <;> decide
    have hxl := uintTxt_length px lx
    have hyl := uintTxt_length py ly
    have g1 := jsonStr_length alg
    have g2 := jsonStr_length enc
    have g3 := jsonStr_length su
    have g4 := jsonStr_length sv
    have g5 := jsonStr_length C.name
    have g6 := jsonStr_length (uintTxt X)
    have g7 := jsonStr_length (uintTxt Y)
    have e1 : (jsonStr "alg").length = 5 := by decide
    have e2 : (jsonStr "enc").length = 5 := by decide
    have e3 : (jsonStr "apu").length = 5 := by decide
    have e4 : (jsonStr "apv").length = 5 := by decide
    have e5 : (jsonStr "epk").length = 5 := by decide
    have e6 : (jsonStr "kty").length = 5 := by decide
    have e7 : (jsonStr "crv").length = 5 := by decide
    have e8 : (jsonStr "x").length = 3 := by decide
    have e9 : (jsonStr "y").length = 3 := by decide
    have e10 : (jsonStr "EC").length = 4 := by decide
    simp only [List.length_cons, List.length_append, List.length_nil, List.cons_append, e1, e2, e3, e4, e5,
      e6, e7, e8, e9, e10]
    omega
  have hd : jsonDumpsC (.dict (ecHdr alg enc (.str su) (.str sv) C X Y)) = .ok (String.ofList l) := by
    unfold jsonDumpsC
    rw [hl]; rfl
  refine ⟨b64e (utf8Encode (String.ofList l)), ?_, ?_⟩
  · simp only [b64encodeItem, hc, hd, Bind.bind, ebind_ok]
  · rw [(C02_length _).1]
    have h5 := (utf8Encode_length (String.ofList l)).2
    have h6 := (utf8Encode_length su).1
    have h7 := (utf8Encode_length sv).1
    rw [h2, (C02_length _).1] at h6
    rw [h4, (C02_length _).1] at h7
    have h8 : (String.ofList l).length = l.length := by simp
    omega

/-- No point of the curve has `y = 0`. -/
theorem publicKeyFor_y {C : NistCurve} (hC : SoundCurve C) {d : Nat} {x y : Int}
    (h : C.publicKeyFor d = some (x, y)) : y ≠ 0 := by
  have : Fact C.p.Prime := ⟨hC.p_prime⟩
  obtain ⟨G, hG, -⟩ := hC.base
  have h1 := C51_mulp hC.two_torsion (some C.G) G d hG
  unfold NistCurve.publicKeyFor at h
  rw [h] at h1
  rintro rfl
  obtain ⟨hn, hP⟩ := h1
  obtain ⟨-, -, c3⟩ := add_cases hn hn
  have := hC.two_torsion (d • G) (by rw [hP]; exact c3 rfl (by simp))
  rw [this] at hP
  cases hP

theorem pack_of_header {j : Jwt} {h : PyDict} (hj : j.headers = .dict h) (hne : h ≠ []) {bh : Bytes}
    (hb : b64encodeItem (.dict h) = .ok bh) {ek : PyVal} {ekb : Bytes} (hek : MsgBytes ek ekb) (iv ct tag : Bytes) :
    ∃ s, j.pack [ek, .bytes iv, .bytes ct, .bytes tag] = .ok s := by
  obtain ⟨x, rfl⟩ := b64encodeItem_b64e hb
  obtain ⟨ss, h5, -⟩ := mapM_utf8Decode_ascii [b64e x, b64e ekb, b64e iv, b64e ct, b64e tag] (by
    intro b hb
    simp only [List.mem_cons, List.not_mem_nil, or_false] at hb
    rcases hb with rfl | rfl | rfl | rfl | rfl <;> exact b64e_ascii _)
  refine ⟨strJoin ss, ?_⟩
  have ht : (PyVal.dict h).truthy = true := by simp [PyVal.truthy, hne]
  have hps : [ek, .bytes iv, .bytes ct, .bytes tag].mapM b64encodeItem =
      .ok [b64e ekb, b64e iv, b64e ct, b64e tag] := by
    rcases hek with ⟨s, rfl, rfl⟩ | rfl <;> rfl
  unfold Jwt.pack
  rw [hj, if_pos ht, if_neg (by simp)]
  simp only [Bind.bind, Except.bind, hb, hps, h5]

theorem Spec.NamesCurve.sizes {C : NistCurve} {v : PyVal} (h : NamesCurve C v) :
    C.name.length = 5 ∧ C.p < 256 ^ 66 := by
  obtain ⟨s, hs, -⟩ := h
  simp only [List.mem_cons, List.not_mem_nil, or_false, Prod.mk.injEq] at hs
  rcases hs with ⟨rfl, rfl⟩ | ⟨rfl, rfl⟩ | ⟨rfl, rfl⟩ <;> exact ⟨by decide +kernel, by decide +kernel⟩

/-- The lengths of derived keys. -/
theorem derive_total {H : Hashes} (hH : H.Lawful) (z alg : Bytes) {apu apv : Bytes} (hu : apu.length < 2 ^ 32)
    (hv : apv.length < 2 ^ 32) {n : Nat} (hn : n ≤ 512) :
    ∃ out, ecdhDeriveFromZ H z apu apv alg n = .ok out ∧ out.length = (n + 7) / 8 := by
  have hd : n < 2 ^ 32 := by omega
  obtain ⟨out, ho, h1, h2, _⟩ := C41_concat H hH z (alg ++ natToBytesW 4 apu.length ++ apu ++
    natToBytesW 4 apv.length ++ apv ++ natToBytesW 4 n) n (by unfold dkBytesOf; omega)
  refine ⟨out, ?_, by omega⟩
  simp only [Bind.bind, Except.bind, ecdhDeriveFromZ, ecdhOtherInfo, packI, if_pos hu, if_pos hv,
    if_pos hd]
  exact ho

/-- **C59.** The complete scenario: with any key pair of one of the three curves, any of the four
algorithms and any of the six content encryptions, every message is encrypted and the token decrypts to
it.  (The library cannot serialize an ephemeral key whose first coordinate is zero, `C05_zero`.) -/
theorem C59_total {E : Env} (hC : E.C.Lawful) (hH : E.H.Lawful) {rnd : JweRnd} (hr : RndLengths rnd)
    (hu : rnd.apu.length < 2 ^ 32) (hv : rnd.apv.length < 2 ^ 32)
    {alg enc : String} {m : KeyMgmt} {kl il : Nat} (hm : MgmtName alg m) (hma : IsAgreement m)
    (he : EncName enc kl il) {msgv : PyVal} {msg : Bytes} (hmsg : MsgBytes msgv msg)
    (hl : msg.length ≤ 16 * 2 ^ 32) {k k2 : Key} {C : NistCurve} {X Y : Int} {D : Nat}
    (hk : HasPoint C X Y k) (hkd : HasScalar D k) (hk2 : HasScalar D k2)
    (hD : 0 < D ∧ D < C.N) (hpub : C.publicKeyFor D = some (X, Y))
    (heph : ∀ y, (C.keyPair rnd.eph).2 ≠ some (0, y))
    (hp : EncPicked m alg .none k) (hp2 : EncPicked m alg .none k2) (hkid : k.kid.truthy = false) :
    ∃ o t, Jwe.new E msgv [("alg", .str alg), ("enc", .str enc)] = .ok o ∧
      (o.encrypt E rnd [k]).1 = .ok t ∧
      ∀ rnd2, (Jwe.decrypt E {} rnd2 (utf8Encode t) [k2]).1 = .ok msg := by
  refine ⟨{ msg := msgv, dict := [("alg", .str alg), ("enc", .str enc)] }, ?_⟩
  have hfp : FirstPicked m alg .none [k] k := ⟨[], [], rfl, hp, by simp⟩
  have hfp2 : FirstPicked m alg .none [k2] k2 := ⟨[], [], rfl, hp2, by simp⟩
  suffices h : ∃ t, (Jwe.encrypt E { msg := msgv, dict := [("alg", .str alg), ("enc", .str enc)] }
      rnd [k]).1 = .ok t by
    obtain ⟨t, ht⟩ := h
    refine ⟨t, jwe_new_short E _ alg enc, ht, fun rnd2 => ?_⟩
    obtain ⟨l, wk, k', h1, h2, h3, h4⟩ := C59_roundtrip hC hH hr (alg := alg) (m := m)
      (o := { msg := msgv, dict := [("alg", .str alg), ("enc", .str enc)] }) (keys := [k])
      (cek := []) (iv := []) (kid := none) rfl hm hma (by
        constructor
        · intro n v hv
          have : v = .str alg ∨ v = .str enc := by
            simp only [PyDict.get?, List.lookup_cons, List.lookup_nil] at hv
            split at hv
            · cases hv; simp
            · split at hv
              · cases hv; simp
              · cases hv
          rcases this with rfl | rfl <;> trivial
        · intro v hv; cases hv
        · intro x hx
          rw [List.mem_singleton] at hx
          subst hx
          exact distinct_of_falsy hkid
        · intro v hv; cases hv
        · intro v hv; cases hv) (by intro b hb; cases hb) ht
    have hk' : k' = k := by
      rcases h1 with ⟨-, rfl⟩ | ⟨hx, -⟩
      · obtain ⟨pre, post, hp', -⟩ := h3
        rcases pre with _ | ⟨a, pre⟩
        · simp at hp'; exact hp'.1.symm
        · simp at hp'
      · cases hx
    subst hk'
    obtain ⟨msg', hm', h5⟩ := h4 C X Y D hk (by intro e he; cases he) hpub
    have hmm : msg' = msg := by
      have hm' : MsgBytes msgv msg' := hm'
      rcases hm' with ⟨s, rfl, rfl⟩ | rfl <;> rcases hmsg with ⟨s', h, rfl⟩ | h <;> cases h <;> rfl
    subst hmm
    exact h5 {} rnd2 [k2] [k2] .none k2 hk2 (.inl ⟨by simp, rfl⟩) (.inr ⟨rfl, .inl ⟨rfl, rfl⟩⟩) hfp2
  rw [encrypt_of_first (l := [k]) (k := k) (wk := .none) rfl hm (.inl ⟨by simp, rfl⟩)
    (.inr ⟨rfl, .inl ⟨rfl, rfl⟩⟩) hfp]
  -- the ephemeral key
  obtain ⟨crv, d, c, hn, hmat⟩ := hk
  obtain ⟨hcn, hsound⟩ := hn.name
  obtain ⟨hnl, hpl⟩ := hn.sizes
  have hdv : d = .int D := by
    obtain ⟨_, _, _, _, hx⟩ := hkd
    rw [hmat] at hx; cases hx; rfl
  subst hdv
  obtain ⟨hd0, hdN, hkp, ex, ey, hxy, hx0, hx1, hy0, hy1, -⟩ := NistCurve.C56_key_pair hsound rnd.eph
  generalize hed : (C.keyPair rnd.eph).1 = ed at hd0 hdN hkp
  rw [hxy] at hkp
  have hyne := publicKeyFor_y hsound hkp.symm
  have hxne : ex ≠ 0 := by rintro rfl; exact heph _ hxy
  obtain ⟨ex, rfl⟩ := Int.eq_ofNat_of_zero_le hx0
  obtain ⟨ey, rfl⟩ := Int.eq_ofNat_of_zero_le hy0
  have px : 0 < ex := by omega
  have py : 0 < ey := by omega
  have heph : Jwe.ephemeral { msg := msgv, dict := [("alg", .str alg), ("enc", .str enc)] } rnd C =
      .ok { keyCommon "EC" ecArgs [] (.val .none) (.ec (.str "") (.str "") (.str "") (.str "") (.val .none)) with
        mat := .ec (.str "") (.int ex) (.int ey) (.int ed) (.curve C) } := by
    have hk : ecKeyNew [] (.val .none) (.val .none) 0 = .ok
        (keyCommon "EC" ecArgs [] (.val .none) (.ec (.str "") (.str "") (.str "") (.str "") (.val .none))) := rfl
    have hpair : C.keyPair rnd.eph = (ed, some ((ex : Int), (ey : Int))) := by rw [← hed, ← hxy]
    unfold Jwe.ephemeral
    rw [hk]
    simp only [PyDict.has, PyDict.get?, List.lookup, Bind.bind, ebind_ok, ecLoadKey, hpair]
    rfl
  generalize hke : ({ keyCommon "EC" ecArgs [] (.val .none) (.ec (.str "") (.str "") (.str "") (.str "") (.val .none)) with
        mat := .ec (.str "") (.int ex) (.int ey) (.int ed) (.curve C) } : Key) = ke at heph
  have hkm : ke.mat = .ec (.str "") (.int ex) (.int ey) (.int ed) (.curve C) := by rw [← hke]
  have hser := ec_serialize hkm (.number px) (.number py) (.number hd0) false
  have hdict : ecDict ke C ex ey none = [("kty", .str "EC"), ("crv", .str C.name), ("x", .str (uintTxt ex)),
      ("y", .str (uintTxt ey))] := by rw [← hke]; rfl
  simp only [Bool.false_eq_true, if_false, hdict] at hser
  obtain ⟨z, hz⟩ := NistCurve.C54_succeeds hsound ed D ⟨hd0, hdN⟩ hD
  rw [hpub] at hz
  obtain ⟨bh, hbh, hbl⟩ := ecHdr_encode hm he hu hv hnl px py (by omega) (by omega)
  obtain ⟨hlk, -⟩ := encName_lookup he
  have hgen : generateKeyAndIv rnd (.str enc) [] [] = .ok (rnd.key kl, rnd.iv il) := by
    unfold generateKeyAndIv
    simp [hlk]
  have hasb : asBytes msgv = .bytes msg := by
    rcases hmsg with ⟨s, rfl, rfl⟩ | rfl <;> rfl
  have hne : alg ≠ "" := (mgmt_keytype hm).1
  have hta : (PyVal.str alg).truthy = true := by simp [PyVal.truthy, hne]
  have hencne : (PyVal.str enc).truthy = true := by cases he <;> decide
  have hinit := init_header hbh rfl (by exact hta)
  have hkind : jweKind (.str alg) = .ok .ec := by
    rw [mgmt_kind hm]; cases m <;> first | rfl | cases hma
  have hDt : (PyVal.int D).truthy = true := int_truthy hD.1
  have hekey : k.encryptionKey E (.str enc) true = .ok (.obj (.val (.int D))) := by
    simp only [Key.encryptionKey, hmat, Key.getKey, if_true, hDt]
  -- the content key and its encryption
  obtain ⟨cek, ek, ekb, hek, hcl, hset⟩ : ∃ cek ek ekb, MsgBytes ek ekb ∧ cek.length = kl ∧
      Jwe.ecEncSetup E { msg := msgv, dict := [("alg", .str alg), ("enc", .str enc)] }
        [("alg", .str alg), ("enc", .str enc)] rnd k = .ok (cek, ek, rnd.iv il,
        [("apu", .bytes (b64e rnd.apu)), ("apv", .bytes (b64e rnd.apv)),
         ("epk", .dict [("kty", .str "EC"), ("crv", .str C.name), ("x", .str (uintTxt ex)), ("y", .str (uintTxt ey))])]) := by
    have hkl : keylen (.str enc) = .ok (8 * kl, utf8Encode enc) ∧ kl ≤ 64 ∧ kl % 8 = 0 := by
      cases he <;> exact ⟨rfl, by decide, by decide⟩
    have hpu : partyParam [("alg", .str alg), ("enc", .str enc)] "apu" rnd.apu = .ok rnd.apu := rfl
    have hpv : partyParam [("alg", .str alg), ("enc", .str enc)] "apv" rnd.apv = .ok rnd.apv := rfl
    have hattr : attrOf [("alg", PyVal.str alg), ("enc", .str enc)] "enc" = .ok (.str enc) := rfl
    have hs1 : storedBytes [("alg", PyVal.str alg), ("enc", .str enc)] "cek" = [] := rfl
    have hs2 : storedBytes [("alg", PyVal.str alg), ("enc", .str enc)] "iv" = [] := rfl
    have hga : (PyDict.get? [("alg", PyVal.str alg), ("enc", .str enc)] "alg").getD .none = .str alg := rfl
    by_cases hdir : alg = "ECDH-ES"
    · obtain ⟨out, ho, hol⟩ := derive_total hH z (utf8Encode enc) hu hv (n := 8 * kl) (by omega)
      refine ⟨out, .str "", _, .inl ⟨_, rfl, rfl⟩, by omega, ?_⟩
      have hdir' : PyVal.str alg = .str "ECDH-ES" := by rw [hdir]
      unfold Jwe.ecEncSetup
      simp only [hpu, hpv, Bind.bind, ebind_ok, ecAttrs, hmat, hn.byVal, heph, hser, hattr, hs1, hs2, hgen, hkm,
        hga, if_pos hdir', hkl.1, ecdhDerive_of hz, ho]
    · obtain ⟨post, n, hkw, hn16⟩ : ∃ post n, ecKwAlg (.str alg) = some (post, 8 * n) ∧ (n = 16 ∨ n = 24 ∨ n = 32) := by
        cases hm <;> first | (cases hma; done) | exact absurd rfl hdir | exact ⟨_, 16, rfl, by decide⟩ |
          exact ⟨_, 24, rfl, by decide⟩ | exact ⟨_, 32, rfl, by decide⟩
      obtain ⟨kek, ho, hol⟩ := derive_total hH z post hu hv (n := 8 * n) (by omega)
      have hkok : aesKeyOk kek = true := by
        unfold aesKeyOk
        rw [hol]
        rcases hn16 with rfl | rfl | rfl <;> decide
      obtain ⟨w, hw, -⟩ := C35_roundtrip E.C hC kek (rnd.key kl) 0xa6a6a6a6a6a6a6a6 hkok (by norm_num)
        (by rw [hr.1]; exact hkl.2.2) (by rw [hr.1]; omega)
      have hw : aesWrapKey E.C kek (rnd.key kl) = .ok w := hw
      refine ⟨rnd.key kl, .bytes w, w, .inr rfl, hr.1 kl, ?_⟩
      have hdir' : ¬ PyVal.str alg = .str "ECDH-ES" := fun h => hdir (by cases h; rfl)
      unfold Jwe.ecEncSetup
      simp only [hpu, hpv, Bind.bind, ebind_ok, ecAttrs, hmat, hn.byVal, heph, hser, hattr, hs1, hs2, hgen, hkm,
        hga, if_neg hdir', hkw, ecdhDerive_of hz, ho, hw]
  obtain ⟨ct, tag, hes⟩ := encSetup_total (E := E) (rnd := rnd) hC hH he (m := msg) (aad := bh)
    hcl (hr.2 il) hl hbl
  obtain ⟨t, ht⟩ := pack_of_header (j := Jwt.mk (.dict (ecHdr alg enc (.bytes (b64e rnd.apu)) (.bytes (b64e rnd.apv)) C ex ey))
    [bh] [(b64d bh).toOption.getD []]) rfl (by simp [ecHdr]) hbh hek (rnd.iv il) ct tag
  refine ⟨t, ?_⟩
  have hsym : (Jwe.symEncrypter { msg := msgv, dict := [("alg", .str alg), ("enc", .str enc)] })
      = { msg := msgv, dict := [("alg", .str alg), ("enc", .str enc)] } := rfl
  have hsetkid : Jwe.setKid { msg := msgv, dict := [("alg", .str alg), ("enc", .str enc)] } k
      = { msg := msgv, dict := [("alg", .str alg), ("enc", .str enc)] } := by
    unfold Jwe.setKid
    rw [hkid]
    rfl
  have hupd : PyDict.update (withKid [("alg", .str alg), ("enc", .str enc)] none) [("apu", .bytes (b64e rnd.apu)),
      ("apv", .bytes (b64e rnd.apv)), ("epk", .dict [("kty", .str "EC"), ("crv", .str C.name),
        ("x", .str (uintTxt ex)), ("y", .str (uintTxt ey))])] =
      ecHdr alg enc (.bytes (b64e rnd.apu)) (.bytes (b64e rnd.apv)) C ex ey := rfl
  have hattr : attrOf [("alg", PyVal.str alg), ("enc", .str enc)] "enc" = .ok (.str enc) := rfl
  unfold Jwe.encryptWith
  rw [hkind]
  simp only [Bind.bind, ebind_ok, hsym, hset, hattr, hencne, if_true, hekey, hsetkid]
  unfold Jwe.ecEncrypt
  simp only [hupd]
  have henc : PyVal.getItem (.dict (ecHdr alg enc (.bytes (b64e rnd.apu)) (.bytes (b64e rnd.apv)) C ex ey)) "enc" =
      .ok (.str enc) := rfl
  simp only [jwencNew, Option.isSome_none, Bool.false_eq_true, if_false, hinit, Bind.bind, ebind_ok, henc,
    Jwt.b64EncodeHeader, hbh, hasb, hes, ht]
  rfl

/-- A P-256 key pair (private number 5) for the example. -/
def exEcKey : Key where
  kty := .str "EC"
  alg := .none
  use := .none
  kid := .none
  key := .val .none
  x5c := .none
  x5t := .none
  x5u := .none
  extra := []
  hash := none
  mat := match P256.publicKeyFor 5 with
    | some (x, y) => .ec (.str "P-256") (.int x) (.int y) (.int 5) (.curve P256)
    | none => .plain

theorem exEcKey_ok : ∃ X Y, P256.publicKeyFor 5 = some (X, Y) ∧ HasPoint P256 X Y exEcKey ∧ HasScalar 5 exEcKey := by
  have hs : (P256.publicKeyFor 5).isSome = true := by decide +kernel
  obtain ⟨⟨X, Y⟩, h⟩ := Option.isSome_iff_exists.mp hs
  exact ⟨X, Y, h, ⟨.str "P-256", .int 5, .curve P256, ⟨_, by simp, .inl rfl⟩, by simp only [exEcKey, h]⟩,
    .str "P-256", .int X, .int Y, .curve P256, by simp only [exEcKey, h]; rfl⟩

example : ∃ o t, Jwe.new toyEnv (.str "hello") [("alg", .str "ECDH-ES+A192KW"), ("enc", .str "A128CBC-HS256")] = .ok o ∧
    (o.encrypt toyEnv exRnd [exEcKey]).1 = .ok t ∧
    ∀ rnd2, (Jwe.decrypt toyEnv {} rnd2 (utf8Encode t) [exEcKey]).1 = .ok (utf8Encode "hello") := by
  obtain ⟨X, Y, h1, h2, h3⟩ := exEcKey_ok
  refine C59_total toyCipher_lawful toyHashes_lawful exRnd_lengths (by decide +kernel) (by decide +kernel)
    .ec192 trivial .c128 (.inl ⟨_, rfl, rfl⟩) (by decide +kernel) h2 h3 h3 (by decide +kernel) h1 ?_
    ⟨.inr (.inl rfl), by decide, by decide, by decide⟩ ⟨.inr (.inl rfl), by decide, by decide, by decide⟩ (by decide)
  have : ((P256.keyPair exRnd.eph).2.map fun p => decide (p.1 = 0)) = some false := by decide +kernel
  intro y hy
  rw [hy] at this
  cases this

end Verif
