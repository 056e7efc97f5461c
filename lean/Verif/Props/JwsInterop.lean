import Verif.Props.Publish
import Verif.Props.Curves
import Verif.Props.EcMore
import Verif.Props.JwsForms
/-
C135: signed tokens made by other implementations.
-/

namespace Verif

namespace Spec

/-- The block of EMSA-PKCS1-v1_5 (RFC 8017 section 9.2) for an encoded digest. -/
def SigBlock15 (len : Nat) (info em : Bytes) : Prop :=
  info.length + 11 ≤ len ∧ em = [0, 1] ++ List.replicate (len - info.length - 3) 0xff ++ [0] ++ info

/-- `em` is the number `s ^ e mod n` of the signature (RSAVP1, RFC 8017 section 5.2.2). -/
def RsaOpensTo (r : RsaKey) (sig em : Bytes) : Prop :=
  sig.length = Real.modLen r ∧ bytesToNat sig < Real.modulus r ∧
    bytesToNat sig ^ r.e.toNat % Real.modulus r = bytesToNat em

/-- RSASSA-PKCS1-v1_5 (RFC 7518 section 3.3); the parameters of the digest algorithm may be absent (RFC 8017, appendix B.1). -/
def Rfc15 (h : HashAlg) (r : RsaKey) (input sig : Bytes) : Prop :=
  ∃ em, RsaOpensTo r sig em ∧ (SigBlock15 (Real.modLen r) (Real.digestPrefix h ++ Real.shaHash h input) em ∨
    SigBlock15 (Real.modLen r) (Real.digestPrefixBare h ++ Real.shaHash h input) em)

/-- RSASSA-PSS with a salt as long as the digest (RFC 7518 section 3.5). -/
def RfcPss (h : HashAlg) (r : RsaKey) (input sig : Bytes) : Prop :=
  ∃ em rnd, RsaOpensTo r sig em ∧ Real.emsaPss h (Real.bitLen (Real.modulus r) - 1) rnd input = .ok em

end Spec

open Spec

/-! ### The verifier of PSS accepts only encodings -/

namespace Real

theorem emsaPssOk_iff {a : HashAlg} {emBits : Nat} {m em : Bytes} (hl : em.length = (emBits + 7) / 8) :
    emsaPssOk a emBits m em = true ↔ ∃ rnd, emsaPss a emBits rnd m = .ok em := by
  constructor
  swap
  · rintro ⟨rnd, h⟩
    exact emsaPssOk_encode h
  intro h
  unfold emsaPssOk at h
  unfold emsaPss
  simp only [Bool.and_eq_true, decide_eq_true_eq] at h ⊢
  generalize (emBits + 7) / 8 = L at *
  generalize hmask : pssMask emBits L = mask at *
  obtain ⟨⟨hL, hlast⟩, hm, hdb, hh⟩ := h
  set masked := em.take (L - a.size - 1) with hmasked
  set hv := (em.drop (L - a.size - 1)).take a.size with hhv
  set db := maskFirst mask (xorBytes masked (mgf1 a hv (L - a.size - 1))) with hdbd
  have hml : masked.length = L - a.size - 1 := by rw [hmasked, List.length_take]; omega
  have hdl : db.length = L - a.size - 1 := by
    rw [hdbd, maskFirst_length, xorBytes, List.length_zipWith, mgf1_length, hml, Nat.min_self]
  have hsl : (db.drop (L - a.size - a.size - 2 + 1)).length = a.size := by
    rw [List.length_drop, hdl]
    omega
  have hsalt : rndBytes a.size (bytesToNat (db.drop (L - a.size - a.size - 2 + 1))) = db.drop (L - a.size - a.size - 2 + 1) := by
    exact natToBytesW_bytesToNat' hsl
  have hdbe : List.replicate (L - a.size - a.size - 2) 0 ++ 1 :: db.drop (L - a.size - a.size - 2 + 1) = db := by
    rw [List.append_cons, ← hdb, List.take_append_drop]
  refine ⟨bytesToNat (db.drop (L - a.size - a.size - 2 + 1)), ?_⟩
  rw [if_neg (by omega), hsalt, hdbe, ← hh]
  have hx := maskFirst_xor mask masked (mgf1 a hv (L - a.size - 1)) (by rw [hml, mgf1_length]) hm
  rw [← hdbd] at hx
  rw [hx]
  have htail : hv ++ [0xbc] = em.drop (L - a.size - 1) := by
    have hdrl : (em.drop (L - a.size - 1)).length = a.size + 1 := by rw [List.length_drop]; omega
    have hne : em.drop (L - a.size - 1) ≠ [] := by
      intro hc
      rw [hc] at hdrl
      simp at hdrl
    have h1 := List.dropLast_append_getLast? (0xbc : UInt8) (l := em.drop (L - a.size - 1))
      (by rw [List.getLast?_drop, if_neg (by omega), hlast]; rfl)
    rw [← h1, hhv, List.dropLast_eq_take, hdrl]
    rfl
  rw [htail, hmasked, List.take_append_drop]

theorem rsaPub_ok {k : RsaKey} {m x : Nat} : rsaPub k m = .ok x ↔ m < modulus k ∧ x = m ^ k.e.toNat % modulus k := by
  unfold rsaPub
  rw [powMod_eq]
  split
  · rename_i h
    simp [h, eq_comm]
  · rename_i h
    simp [h]

theorem emsa15_iff {len : Nat} {info em : Bytes} : emsa15 len info = .ok em ↔ SigBlock15 len info em := by
  unfold emsa15 SigBlock15
  split
  · rename_i h
    simp only [reduceCtorEq, false_iff, not_and]
    omega
  · rename_i h
    simp only [Except.ok.injEq]
    constructor
    · rintro rfl
      exact ⟨by omega, by simp⟩
    · rintro ⟨-, rfl⟩
      simp

theorem verify15_iff {h : HashAlg} {r : RsaKey} {input sig : Bytes} : verify15 h r input sig = true ↔ Rfc15 h r input sig := by
  unfold verify15 Rfc15 RsaOpensTo
  rw [Bool.and_eq_true, decide_eq_true_eq]
  constructor
  · rintro ⟨hl, h⟩
    cases hp : rsaPub r (bytesToNat sig) with
    | error e => rw [hp] at h; cases h
    | ok x =>
      rw [hp] at h
      simp only [Bool.or_eq_true, decide_eq_true_eq, emsa15_iff] at h
      obtain ⟨hlt, hx⟩ := rsaPub_ok.mp hp
      have hxl : x < modulus r := by rw [hx]; exact Nat.mod_lt _ (by omega)
      exact ⟨_, ⟨hl, hlt, by rw [← hx, os2ip_i2osp hxl]⟩, h⟩
  · rintro ⟨em, ⟨hl, hlt, hx⟩, h⟩
    refine ⟨hl, ?_⟩
    rw [rsaPub_ok.mpr ⟨hlt, rfl⟩, hx]
    have hem : em.length = modLen r := by
      rcases h with h | h
      · exact emsa15_length (emsa15_iff.mpr h)
      · exact emsa15_length (emsa15_iff.mpr h)
    simp only [Bool.or_eq_true, decide_eq_true_eq, emsa15_iff]
    rw [← hem, natToBytesW_bytesToNat, hem]
    exact h

theorem verifyPss_iff {h : HashAlg} {r : RsaKey} {input sig : Bytes} : verifyPss h r input sig = true ↔ RfcPss h r input sig := by
  unfold verifyPss RfcPss RsaOpensTo
  rw [Bool.and_eq_true, decide_eq_true_eq]
  constructor
  · rintro ⟨hl, h⟩
    cases hp : rsaPub r (bytesToNat sig) with
    | error e => rw [hp] at h; cases h
    | ok x =>
      rw [hp] at h
      simp only [Bool.and_eq_true, decide_eq_true_eq] at h
      obtain ⟨hlt, hx⟩ := rsaPub_ok.mp hp
      obtain ⟨rnd, he⟩ := (emsaPssOk_iff (natToBytesW_length _ _)).mp h.2
      exact ⟨_, rnd, ⟨hl, hlt, by rw [← hx, bytesToNat_natToBytesW, Nat.mod_eq_of_lt h.1]⟩, he⟩
  · rintro ⟨em, rnd, ⟨hl, hlt, hx⟩, h⟩
    refine ⟨hl, ?_⟩
    rw [rsaPub_ok.mpr ⟨hlt, rfl⟩, hx]
    have hem := emsaPss_length h
    simp only [Bool.and_eq_true, decide_eq_true_eq]
    have hb := bytesToNat_lt em
    rw [hem] at hb
    refine ⟨hb, ?_⟩
    rw [← hem, natToBytesW_bytesToNat]
    exact emsaPssOk_encode h

end Real

/-! ### Accepting is validity by the standard -/

/-- **C135.** RS256, RS384, RS512: the verifier accepts exactly the signatures of RFC 8017 section 8.2. -/
theorem C135_rs {E : Env} (hE : Standard E) {k : Key} {r : RsaKey} (hn : ¬ IsEc k) (hk : k.key = .rsa r) (h : HashAlg) (input sig : Bytes) :
    Accepts E k input sig (.rs h) ↔ Rfc15 h r input sig := by
  obtain ⟨f, hf⟩ := hE.rsa
  rw [← Real.verify15_iff]
  constructor
  · rintro ⟨-, r', hr, hv⟩
    rw [hk] at hr
    cases hr
    rw [hf] at hv
    exact Except.ok.inj hv
  · intro hv
    exact ⟨hn, r, hk, by rw [hf]; exact congrArg Except.ok hv⟩

/-- **C135.** PS256, PS384, PS512: exactly the signatures of RFC 8017 section 8.1 with a salt as long as the digest. -/
theorem C135_ps {E : Env} (hE : Standard E) {k : Key} {r : RsaKey} (hn : ¬ IsEc k) (hk : k.key = .rsa r) (h : HashAlg) (input sig : Bytes) :
    Accepts E k input sig (.ps h) ↔ RfcPss h r input sig := by
  obtain ⟨f, hf⟩ := hE.rsa
  rw [← Real.verifyPss_iff]
  constructor
  · rintro ⟨-, r', hr, hv⟩
    rw [hk] at hr
    cases hr
    rw [hf] at hv
    exact Except.ok.inj hv
  · intro hv
    exact ⟨hn, r, hk, by rw [hf]; exact congrArg Except.ok hv⟩

namespace Spec

/-- The number that the library signs instead of the digest: half of it if it is above the order of the curve. -/
def SignedNumber (N digest e : Nat) : Prop := (digest ≤ N ∧ e = digest) ∨ (N < digest ∧ e = digest / 2)

/-- The key is an `ECKey` with the public point `(x, y)`. -/
def EcPoint (k : Key) (x y : Int) : Prop :=
  ∃ crv vx vy d c, k.mat = .ec crv vx vy d c ∧ vx.asInt? = some x ∧ vy.asInt? = some y ∧ x ≠ 0 ∧ y ≠ 0

end Spec

theorem digest_lt {C : NistCurve} {h : HashAlg} {name : String} (hn : SupportedAlg name (.es h)) (hC : CurveFor h C) (b : Bytes) :
    bytesToNat (Real.shaHash h b) < 2 * C.N := by
  have hb := bytesToNat_lt (Real.shaHash h b)
  rw [Real.shaHash_length] at hb
  cases hn <;> (cases hC; refine lt_trans hb ?_; decide +kernel)

theorem shrink_number {N d : Nat} (h : d < 2 * N) : SignedNumber N d (NistCurve.shrink N d) := by
  by_cases hd : d ≤ N
  · exact .inl ⟨hd, by rw [NistCurve.shrink, if_neg (by omega)]⟩
  · exact .inr ⟨by omega, by rw [NistCurve.shrink, if_pos (by omega), NistCurve.shrink, if_neg (by omega)]⟩

theorem pubPoint_iff {k : Key} {x y : Int} (h : EcPoint k x y) {P : EPt} : PubPoint k P ↔ P = some (x, y) := by
  obtain ⟨crv, vx, vy, d, c, hm, hx, hy, hx0, hy0⟩ := h
  constructor
  · rintro (⟨crv', x', y', d', c', i, j, hm', hi, hj, -, -, rfl⟩ | ⟨hn, -⟩)
    · rw [hm] at hm'
      cases hm'
      rw [hx] at hi
      rw [hy] at hj
      cases hi
      cases hj
      rfl
    · exact absurd ⟨_, _, _, _, _, hm⟩ hn
  · rintro rfl
    exact .inl ⟨_, _, _, _, _, _, _, hm, hx, hy, hx0, hy0, rfl⟩

/-- **C135.** ES256, ES384, ES512: the verifier accepts exactly the ECDSA signatures (`r` the first, `s` the other bytes) of the
digest, or of half the digest if that is above the order of the curve. -/
theorem C135_es {E : Env} (hE : Standard E) {name : String} {h : HashAlg} (hn : SupportedAlg name (.es h)) {C : NistCurve} (hC : CurveFor h C)
    [Fact C.p.Prime] {G Q : (ecurve C.p C.a C.b).Point} (hG : Rep (some C.G) G) {k : Key} {x y : Int} (hk : EcPoint k x y)
    (hQ : Rep (some (x, y)) Q) (input sig : Bytes) :
    Accepts E k input sig (.es h) ↔ ∃ e, SignedNumber C.N (bytesToNat (Real.shaHash h input)) e ∧
      EcdsaValid (ecurve C.p C.a C.b) C.N G Q e (bytesToNat (sig.take C.bytes)) (bytesToNat (sig.drop C.bytes)) := by
  have hS : SoundCurve C := by
    cases hn <;> cases hC
    · exact C55_P256
    · exact C55_P384
    · exact C55_P521
  have hs := shrink_number (digest_lt hn hC input)
  have hhash : E.H.hash h input = Real.shaHash h input := by rw [hE.hash]; rfl
  have hv := (NistCurve.C53_verify hS G Q hG _ hQ (bytesToNat (Real.shaHash h input)) sig).1
  constructor
  · rintro ⟨C', P, hC', hP, hacc⟩
    obtain rfl := (pubPoint_iff hk).mp hP
    obtain rfl : C' = C := by
      cases h <;> exact Except.ok.inj (Eq.trans (Eq.symm hC') hC)
    rw [hhash] at hacc
    exact ⟨_, hs, hv.mp hacc⟩
  · rintro ⟨e, he, hval⟩
    have hee : e = NistCurve.shrink C.N (bytesToNat (Real.shaHash h input)) := by
      rcases hs with ⟨h1, h2⟩ | ⟨h1, h2⟩ <;> rcases he with ⟨h3, h4⟩ | ⟨h3, h4⟩
      · rw [h2, h4]
      · omega
      · omega
      · rw [h2, h4]
    subst hee
    exact ⟨C, _, hC, (pubPoint_iff hk).mpr rfl, by rw [hhash]; exact hv.mpr hval⟩

/-! ### Tokens -/

namespace Spec

/-- The signature is valid under the key as RFC 7518 sections 3.2, 3.3 and 3.5 say. -/
def RfcSigned (k : Key) (input sig : Bytes) : SigAlg → Prop
  | .hs h => ∃ secret, k.key = .val (.bytes secret) ∧ sig = Real.shaHmac h secret input
  | .rs h => ∃ r, k.key = .rsa r ∧ Rfc15 h r input sig
  | .ps h => ∃ r, k.key = .rsa r ∧ RfcPss h r input sig
  | .es _ => False

end Spec

theorem accepts_rfc {E : Env} (hE : Standard E) {k : Key} {a : SigAlg} (hs : Shaped k a) (input sig : Bytes) :
    Accepts E k input sig a ↔ RfcSigned k input sig a := by
  cases a with
  | hs h =>
    constructor
    · rintro ⟨-, secret, hk, rfl⟩
      exact ⟨secret, hk, by rw [hE.hash]; rfl⟩
    · rintro ⟨secret, hk, rfl⟩
      exact ⟨hs.1, secret, hk, by rw [hE.hash]; rfl⟩
  | rs h =>
    obtain ⟨hn, r, hr⟩ := hs
    rw [C135_rs hE hn hr]
    constructor
    · exact fun h => ⟨r, hr, h⟩
    · rintro ⟨r', hr', h⟩
      rw [hr] at hr'
      cases hr'
      exact h
  | ps h =>
    obtain ⟨hn, r, hr⟩ := hs
    rw [C135_ps hE hn hr]
    constructor
    · exact fun h => ⟨r, hr, h⟩
    · rintro ⟨r', hr', h⟩
      rw [hr] at hr'
      cases hr'
      exact h
  | es h => exact hs.elim

/-- **C135.** A compact token with an HMAC or RSA algorithm, whatever the spelling of its header and its base64 text, is accepted by a
fresh object exactly if its signature over the first two segments as sent is valid by the standard under one of the caller's keys with
the right type, `kid` and `alg`. -/
theorem C135_tokens {E : Env} (hE : Standard E) {jws s0 s1 : Bytes} {hdr : PyDict} {p sig : Bytes} {name : String} {a : SigAlg} {kid m : PyVal}
    (ht : Token jws s0 s1 (.dict hdr) p sig) (hal : PyDict.get? hdr "alg" = some (.str name)) (hsup : SupportedAlg name a)
    (hkid : WantedKid [] hdr kid) (hm : Message E.jsonBytes hdr p m) {keys : List Key} (hne : keys ≠ [])
    (hsh : ∀ k ∈ keys, Suitable a name kid k → Shaped k a) (an : Bool) :
    (∃ k, (({} : Jwx).verifyVerbose E jws keys an .none).1 = .ok (m, some k)) ↔
      ∃ k ∈ keys, Suitable a name kid k ∧ RfcSigned k (s0 ++ 46 :: s1) sig a := by
  rw [C20_some_key E {} jws keys hne an .none m s0 s1 hdr p sig name a kid ht hal hsup (by simp [PyDict.get?]) (by simp [PyVal.truthy]) hkid hm
    (fun x hx hs hn => softFail_std hE (hsh x hx hs) hn)]
  constructor
  · rintro ⟨k, hk, hs, hA⟩
    exact ⟨k, hk, hs, (accepts_rfc hE (hsh k hk hs) _ _).mp hA⟩
  · rintro ⟨k, hk, hs, hA⟩
    exact ⟨k, hk, hs, (accepts_rfc hE (hsh k hk hs) _ _).mpr hA⟩

/-- **C135.** The same for ES256, ES384 and ES512 and one key, whose point is on the curve. -/
theorem C135_tokens_es {E : Env} (hE : Standard E) {jws s0 s1 : Bytes} {hdr : PyDict} {p sig : Bytes} {name : String} {h : HashAlg} {kid m : PyVal}
    (ht : Token jws s0 s1 (.dict hdr) p sig) (hal : PyDict.get? hdr "alg" = some (.str name)) (hsup : SupportedAlg name (.es h))
    (hkid : WantedKid [] hdr kid) (hm : Message E.jsonBytes hdr p m) {C : NistCurve} (hC : CurveFor h C) [Fact C.p.Prime]
    {G Q : (ecurve C.p C.a C.b).Point} (hG : Rep (some C.G) G) {k : Key} {x y : Int} (hk : EcPoint k x y) (hQ : Rep (some (x, y)) Q)
    (hs : Suitable (.es h) name kid k) (an : Bool) :
    (({} : Jwx).verifyVerbose E jws [k] an .none).1 = .ok (m, some k) ↔
      ∃ e, SignedNumber C.N (bytesToNat (Real.shaHash h (s0 ++ 46 :: s1))) e ∧
        EcdsaValid (ecurve C.p C.a C.b) C.N G Q e (bytesToNat (sig.take C.bytes)) (bytesToNat (sig.drop C.bytes)) := by
  rw [← C135_es hE hsup hC hG hk hQ, verifyVerbose_iff]
  constructor
  · rintro ⟨t0, t1, hdr', p', sig', name', a', kid', l, ht', hal', hsup', -, -, heff, -, ⟨pre, post, hl, -, hA, -⟩, -⟩
    obtain ⟨rfl, rfl, hh, rfl, rfl⟩ := token_unique ht ht'
    cases hh
    rw [hal] at hal'
    cases hal'
    obtain rfl : SigAlg.es h = a' := by
      have h1 := (signerOf_iff (.str name) (.es h)).mpr ⟨name, rfl, hsup⟩
      have h2 := (signerOf_iff (.str name) a').mpr ⟨name, rfl, hsup'⟩
      rw [h1] at h2
      exact Option.some.inj (Option.some.inj h2)
    exact hA
  · intro hA
    exact ⟨s0, s1, hdr, p, sig, name, .es h, kid, [k], ht, hal, hsup, by simp [PyDict.get?], by simp [PyVal.truthy], .inl ⟨by simp, rfl⟩, hkid,
      ⟨[], [], rfl, hs, hA, by simp⟩, hm⟩

/-! ### Examples -/

/-- A header as other implementations write it: `{ "alg" : "HS256" }` with line breaks, padded base64, and any payload text. -/
def exForeignHeader : Bytes := ascii "ew0KICJhbGciIDogIkhTMjU2Ig0KfQ=="

theorem exForeign_token (payload sig : Bytes) : Token (exForeignHeader ++ 46 :: b64e payload ++ 46 :: b64e sig) exForeignHeader (b64e payload)
    (.dict [("alg", .str "HS256")]) payload sig :=
  ⟨⟨_, rfl, C01_roundtrip _, fun hc => (b64d_chars (C01_roundtrip _) _ hc).2 rfl⟩,
    ⟨by decide +kernel, fun hc => (b64d_chars (C01_roundtrip _) _ hc).2 rfl⟩,
    ⟨ascii "{\r\n \"alg\" : \"HS256\"\r\n}", "{\r\n \"alg\" : \"HS256\"\r\n}", by decide +kernel, by decide +kernel, by decide +kernel⟩,
    C01_roundtrip _⟩

/-- Such a token is accepted exactly with the HMAC of the text as sent. -/
example (text : String) (v : PyVal) (hv : jsonLoads text = .ok v) (sig : Bytes) :
    (∃ k, (({} : Jwx).verifyVerbose stdEnv (exForeignHeader ++ 46 :: b64e (utf8Encode text) ++ 46 :: b64e sig) [exKey] false .none).1 =
      .ok (v, some k)) ↔ sig = Real.shaHmac .sha256 (ascii "k") (exForeignHeader ++ 46 :: b64e (utf8Encode text)) := by
  have hs : Suitable (.hs .sha256) "HS256" .none exKey := ⟨.inl rfl, by simp [none_truthy], by decide⟩
  have hsh : Shaped exKey (.hs .sha256) := ⟨(by rintro ⟨_, _, _, _, _, h⟩; cases h), _, rfl⟩
  rw [C135_tokens stdEnv_standard (exForeign_token _ sig) rfl .HS256 (kid := .none) (.inr (.inr ⟨rfl, rfl, rfl⟩))
    (m := v) ⟨.str text, .inl ⟨text, rfl, rfl⟩, .inr ⟨.inl rfl, .inl (.inl ⟨text, rfl, hv⟩)⟩⟩ (by simp)
    (by intro k hk _; simp at hk; subst hk; exact hsh)]
  constructor
  · rintro ⟨k, hk, -, secret, hk', h⟩
    simp at hk
    subst hk
    cases hk'
    exact h
  · rintro rfl
    exact ⟨exKey, by simp, hs, _, rfl, rfl⟩

/-- With the public exponent 1 the signature is the block itself. -/
def exTrivialRsa : RsaKey := { n := 2 ^ 800, e := 1, priv := none }

theorem exTrivial_len : Real.modLen exTrivialRsa = 101 := by decide +kernel

theorem exTrivial_rs (input : Bytes) : Rfc15 .sha256 exTrivialRsa input
    ([0, 1] ++ List.replicate 47 0xff ++ [0] ++ (Real.digestPrefix .sha256 ++ Real.shaHash .sha256 input)) := by
  have hl := Real.shaHash_length .sha256 input
  have hd : (Real.digestPrefix .sha256).length = 19 := rfl
  have hs : HashAlg.size .sha256 = 32 := rfl
  have hlt : bytesToNat ([0, 1] ++ List.replicate 47 0xff ++ [0] ++ (Real.digestPrefix .sha256 ++ Real.shaHash .sha256 input)) <
      Real.modulus exTrivialRsa := by
    have h := Real.bytesToNat_zero_cons (1 :: (List.replicate 47 0xff ++ [0] ++ (Real.digestPrefix .sha256 ++ Real.shaHash .sha256 input)))
    simp only [List.length_cons, List.length_append, List.length_replicate, List.length_nil, hl, hd, hs] at h
    simp only [List.cons_append, List.nil_append]
    refine lt_of_lt_of_le h ?_
    decide +kernel
  refine ⟨[0, 1] ++ List.replicate 47 0xff ++ [0] ++ (Real.digestPrefix .sha256 ++ Real.shaHash .sha256 input), ⟨?_, hlt, ?_⟩, .inl ⟨?_, ?_⟩⟩
  · rw [exTrivial_len]
    simp [hl, hd, hs]
  · show _ ^ 1 % _ = _
    rw [pow_one, Nat.mod_eq_of_lt hlt]
  · rw [exTrivial_len, List.length_append, hl, hd, hs]
    decide
  · rw [exTrivial_len, List.length_append, hl, hd, hs]

example {k : Key} (hn : ¬ IsEc k) (hk : k.key = .rsa exTrivialRsa) (input : Bytes) : Accepts stdEnv k input
    ([0, 1] ++ List.replicate 47 0xff ++ [0] ++ (Real.digestPrefix .sha256 ++ Real.shaHash .sha256 input)) (.rs .sha256) :=
  (C135_rs stdEnv_standard hn hk _ _ _).mpr (exTrivial_rs input)

/-- PSS with any salt. -/
example {k : Key} (hn : ¬ IsEc k) (hk : k.key = .rsa exTrivialRsa) (input : Bytes) (rnd : Nat) :
    ∃ em, Real.emsaPss .sha256 800 rnd input = .ok em ∧ Accepts stdEnv k input (0 :: em) (.ps .sha256) := by
  have hok : ∃ em, Real.emsaPss .sha256 800 rnd input = .ok em := by
    unfold Real.emsaPss
    simp only
    rw [if_neg (by decide)]
    exact ⟨_, rfl⟩
  obtain ⟨em, he⟩ := hok
  have hl := Real.emsaPss_length he
  have hlt : bytesToNat (0 :: em) < Real.modulus exTrivialRsa := by
    refine lt_of_lt_of_le (Real.bytesToNat_zero_cons em) ?_
    rw [hl]
    decide +kernel
  have hb : bytesToNat (0 :: em) = bytesToNat em := by simp [bytesToNat]
  refine ⟨em, he, (C135_ps stdEnv_standard hn hk _ _ _).mpr ⟨em, rnd, ⟨?_, hlt, ?_⟩, ?_⟩⟩
  · rw [exTrivial_len, List.length_cons, hl]
  · show _ ^ 1 % _ = _
    rw [pow_one, Nat.mod_eq_of_lt hlt, hb]
  · have : Real.bitLen (Real.modulus exTrivialRsa) - 1 = 800 := by decide +kernel
    rw [this]
    exact he

theorem exEs_point : EcPoint exEsKey 57807358241436249728379122087876380298924820027722995515715270765240753673285
    90436541859143682268950424386863654389577770182238183823381687388274600502701 :=
  ⟨_, _, _, _, _, rfl, rfl, rfl, by decide, by decide⟩

/-- The key of RFC 7515 A.3: its tokens are accepted exactly with the signatures that ECDSA defines, among them `exEsSig`. -/
example : ∃ (_ : Fact P256.p.Prime) (G Q : (ecurve P256.p P256.a P256.b).Point) (e : Nat), Rep (some P256.G) G ∧
    SignedNumber P256.N (bytesToNat (Real.shaHash .sha256 (ascii "eyJhbGciOiJFUzI1NiJ9" ++ 46 :: ascii "e30"))) e ∧
    EcdsaValid (ecurve P256.p P256.a P256.b) P256.N G Q e (bytesToNat (exEsSig.take 32)) (bytesToNat (exEsSig.drop 32)) := by
  have hp : Fact P256.p.Prime := ⟨C55_P256.p_prime⟩
  obtain ⟨G, hG, -⟩ := C55_P256.base
  obtain ⟨Q, hQ⟩ := rep_of_element (n := P256.p) (p := P256.a) (q := P256.b) cert_P256.odd
    (x := 57807358241436249728379122087876380298924820027722995515715270765240753673285)
    (y := 90436541859143682268950424386863654389577770182238183823381687388274600502701) (by decide +kernel) (by decide +kernel)
  obtain ⟨e, h1, h2⟩ := (C135_tokens_es stdEnv_standard (exEs_token exEsSig) rfl .ES256 (kid := .none) (.inr (.inr ⟨rfl, rfl, rfl⟩))
    (m := .dict []) ⟨.str "{}", .inl ⟨"{}", by decide, rfl⟩, .inr ⟨.inl rfl, .inl (.inl ⟨"{}", rfl, by decide +kernel⟩)⟩⟩
    exEs_curve hG exEs_point hQ ⟨.inr (.inl rfl), by simp [none_truthy], by decide⟩ false).mp exEs_ok
  exact ⟨hp, G, Q, e, hG, h1, h2⟩

end Verif
