import Verif.Real.AesLaws
import Verif.Real.RsaLaws
import Verif.Props.JwsJson
import Verif.Props.JweEc
import Verif.Props.JweRsa
import Verif.Props.JweGate
/-
C97: the round trips with AES, SHA-1/2, HMAC and RSA as their standards define them, not only for a library
that is assumed to be lawful.
-/

namespace Verif
open Spec

/-- The environment computes with the algorithms of FIPS 197, FIPS 180-4, RFC 2104 and RFC 8017. -/
structure Spec.Standard (E : Env) : Prop where
  cipher : E.C = Real.aes
  hash : E.H = Real.sha
  rsa : ∃ fromCert, E.R = Real.rsa fromCert

theorem Spec.Standard.aesLaw {E : Env} (h : Standard E) : E.C.Lawful := h.cipher ▸ Real.aes_lawful
theorem Spec.Standard.shaLaw {E : Env} (h : Standard E) : E.H.Lawful := h.hash ▸ Real.sha_lawful
theorem Spec.Standard.rsaLaw {E : Env} (h : Standard E) : E.R.Lawful := by
  obtain ⟨f, hf⟩ := h.rsa
  rw [hf]
  exact Real.rsa_lawful f

/-- **C97.** The laws that the theorems assume of the cryptographic library hold of the standard
algorithms. -/
theorem C97_laws {E : Env} (h : Standard E) : E.C.Lawful ∧ E.H.Lawful ∧ E.R.Lawful :=
  ⟨h.aesLaw, h.shaLaw, h.rsaLaw⟩

/-- **C97.** Every private RSA key that `RSA.construct` accepts is consistent, so it decrypts what is
encrypted with its public half. -/
theorem C97_construct {E : Env} (h : Standard E) {n e d : Int} {l : List Int} {k : RsaKey}
    (hk : E.R.construct (n :: e :: d :: l) = .ok k) : k.Consistent ∧ k.n = n ∧ k.e = e := by
  obtain ⟨f, hf⟩ := h.rsa
  rw [hf] at hk
  have hk' : Real.construct (n :: e :: d :: l) = .ok k := hk
  rcases Real.construct_cases hk' with ⟨n', e', hl, -, rfl⟩ | ⟨n', e', d', p, q, ⟨r, hl⟩, hp, rfl⟩
  · simp at hl
  · simp only [List.cons.injEq] at hl
    exact ⟨Real.privateOk_consistent hp, hl.1.symm, hl.2.1.symm⟩

theorem Real.rsaPriv_error {k : RsaKey} {c : Nat} {e : Exc} (h : rsaPriv k c = .error e) :
    e = .valueError ∨ e = .typeError := by
  unfold rsaPriv at h
  split at h
  · split at h
    · exact .inr (Except.error.inj h).symm
    · simp only at h
      split at h
      · simp at h
      · exact .inl (Except.error.inj h).symm
  · exact .inl (Except.error.inj h).symm

theorem Real.dec15_error {k : RsaKey} {c : Bytes} {e : Exc} (h : dec15 k c = .error e) :
    e = .valueError ∨ e = .typeError := by
  unfold dec15 at h
  split at h
  · exact .inl (Except.error.inj h).symm
  · cases hx : rsaPriv k (bytesToNat c) with
    | error e' =>
      simp only [hx, Bind.bind, Except.bind] at h
      rw [← Except.error.inj h]
      exact rsaPriv_error hx
    | ok x => simp [hx, Bind.bind, Except.bind] at h

theorem Real.oaepDecode_error {a : HashAlg} {n : Nat} {em : Bytes} {e : Exc}
    (h : oaepDecode a n em = .error e) : e = .valueError := by
  unfold oaepDecode at h
  split at h
  · simp only at h
    split at h
    · split at h
      · simp at h
      · exact (Except.error.inj h).symm
    · exact (Except.error.inj h).symm
  · exact (Except.error.inj h).symm

theorem Real.decOaep_error {a : HashAlg} {k : RsaKey} {c : Bytes} {e : Exc} (h : decOaep a k c = .error e) :
    e = .valueError ∨ e = .typeError := by
  unfold decOaep at h
  split at h
  · exact .inl (Except.error.inj h).symm
  · cases hx : rsaPriv k (bytesToNat c) with
    | error e' =>
      simp only [hx, Bind.bind, Except.bind] at h
      rw [← Except.error.inj h]
      exact rsaPriv_error hx
    | ok x =>
      simp only [hx, Bind.bind, Except.bind] at h
      exact .inl (oaepDecode_error h)

/-- **C97.** RSA decryption raises only `ValueError` and `TypeError`, so it does not disturb the loop over
several keys. -/
theorem C97_quiet {E : Env} (h : Standard E)
    (hz : ∀ b e, E.Z.decompress b = .error e → e ≠ .keyError ∧ e ≠ .decryptionFailed) : LibQuiet E := by
  obtain ⟨f, hf⟩ := h.rsa
  refine ⟨fun k ct e he => ?_, fun a k ct e he => ?_, hz⟩
  · rw [hf] at he
    rcases Real.dec15_error (k := k) (c := ct) he with rfl | rfl <;> decide
  · rw [hf] at he
    rcases Real.decOaep_error (a := a) (k := k) (c := ct) he with rfl | rfl <;> decide

/-- **C97.** Signing and verifying: what `sign_compact` returns is accepted, and the payload is the message. -/
theorem C97_jws {E : Env} (hE : Standard E) (o : Jwx) (keys : List Key) (hkne : keys ≠ [])
    (prot : PyDict) (rnd : Nat) (t name : String) (a : SigAlg) (hsup : SupportedAlg name a)
    (hA : AlgFor o keys (.str name)) (hp : (PyVal.dict prot).jsonable = true)
    (hkj : ∀ k ∈ keys, k.kid.jsonable = true ∧ k.kid.pyEq k.kid = true)
    (hty : ∀ v, PyDict.get? o.dict "typ" = some v → v.jsonable = true)
    (hpk : ∀ k ∈ keys, k.kid.truthy = true ∨ ((PyDict.get? prot "kid").getD .none).truthy = false)
    (hcty : PyDict.get? prot "cty" = none ∨ ∃ c, PyDict.get? prot "cty" = some (.str c))
    (hmsg : PartOk o.msg) (hjb : JsonBytesLawful E.jsonBytes)
    (hown : ∀ kid, ∀ k ∈ keys, SignSuitable a name kid k → OwnKey k a)
    (hsoft : ∀ kid input sig, ∀ k ∈ keys, Suitable a name kid k → ¬ Accepts E k input sig a →
      SoftFail E a input sig k)
    (h : (o.signCompact E keys prot rnd).1 = .ok t) (an : Bool) (sigalg : PyVal)
    (hsa : sigalg.truthy = true → sigalg = .str name) :
    ∃ m k hdr p key, (({} : Jwx).verifyVerbose E (utf8Encode t) keys an sigalg).1 = .ok (m, some k) ∧
      SignedHeader o prot (.str name) (some key) hdr ∧ PartBytes o.msg p ∧
      Message E.jsonBytes hdr p m :=
  C11_roundtrip E hE.rsaLaw o keys hkne prot rnd t name a hsup hA hp hkj hty hpk hcty hmsg hjb hown hsoft h
    an sigalg hsa

/-- **C97.** Encryption with a shared key (AES key wrap) and any of the six content encryptions. -/
theorem C97_wrap {E : Env} (hE : Standard E) {rnd : JweRnd} (hr : RndLengths rnd)
    {alg enc : String} {n kl il : Nat} (hm : MgmtName alg (.wrap n)) (he : EncName enc kl il)
    (m : String) (hl : (utf8Encode m).length ≤ 16 * 2 ^ 32) {k : Key} {secret : Bytes}
    (hk : SharedKey k secret) (hp : EncPicked (.wrap n) alg .none k) (hkid : k.kid.truthy = false) :
    ∃ o t, Jwe.new E (.str m) [("alg", .str alg), ("enc", .str enc)] = .ok o ∧
      (o.encrypt E rnd [k]).1 = .ok t ∧
      ∀ rnd2, (Jwe.decrypt E {} rnd2 (utf8Encode t) [k]).1 = .ok (utf8Encode m) :=
  C57_total hE.aesLaw hE.shaLaw hr hm he m hl hk hp hkid

/-- **C97.** Key agreement on one of the three curves. -/
theorem C97_ecdh {E : Env} (hE : Standard E) {rnd : JweRnd} (hr : RndLengths rnd)
    (hu : rnd.apu.length < 2 ^ 32) (hv : rnd.apv.length < 2 ^ 32)
    {alg enc : String} {m : KeyMgmt} {kl il : Nat} (hm : MgmtName alg m) (hma : IsAgreement m)
    (he : EncName enc kl il) {msgv : PyVal} {msg : Bytes} (hmsg : MsgBytes msgv msg)
    (hl : msg.length ≤ 16 * 2 ^ 32) {k k2 : Key} {C : NistCurve} {X Y : Int} {D : Nat}
    (hk : HasPoint C X Y k) (hkd : HasScalar D k) (hk2 : HasScalar D k2)
    (hD : 0 < D ∧ D < C.N) (hpub : C.publicKeyFor D = some (X, Y))
    (heph : ∀ y, (C.keyPair rnd.eph).2 ≠ some (0, y))
    (hp : EncPicked m alg .none k) (hp2 : EncPicked m alg .none k2) (hkid : k.kid.truthy = false) :
    ∃ o t, Jwe.new E msgv [("alg", .str alg), ("enc", .str enc)] = .ok o ∧
      (o.encrypt E rnd [k]).1 = .ok t ∧
      ∀ rnd2, (Jwe.decrypt E {} rnd2 (utf8Encode t) [k2]).1 = .ok msg :=
  C59_total hE.aesLaw hE.shaLaw hr hu hv hm hma he hmsg hl hk hkd hk2 hD hpub heph hp hp2 hkid

set_option exponentiation.threshold 2000 in
/-- A modulus of so many bits leaves room for the longest content key under every padding. -/
theorem Real.modLen_of_bits {r : RsaKey} (h : (2 : Int) ^ 1039 ≤ r.n) : 130 ≤ modLen r := by
  have h1 : 2 ^ 1039 ≤ modulus r := by
    unfold modulus
    omega
  have h2 := lt_bitLen (modulus r)
  have h3 : 1039 < bitLen (modulus r) := by
    by_contra hc
    have : 2 ^ bitLen (modulus r) ≤ 2 ^ 1039 := Nat.pow_le_pow_right (by norm_num) (by omega)
    omega
  unfold modLen
  omega

/-- **C97.** Encryption with the public half of an RSA key that `RSA.construct` accepts, of 1040 bits or
more: every message is encrypted, and the private key decrypts the token.  (Compression is assumed to be
inverted by decompression.) -/
theorem C97_rsa {E : Env} (hE : Standard E) (hZ : E.Z.Lawful)
    {rnd : JweRnd} (hr : RndLengths rnd)
    {alg enc : String} {p : RsaPad} {kl il : Nat} (hm : MgmtName alg (.rsa p)) (he : EncName enc kl il)
    (z : Bool) {msg : PyVal} {m : Bytes} (hmsg : MsgBytes msg m) (hl : m.length ≤ 16 * 2 ^ 32)
    (hlz : z = true → (E.Z.compress m).length ≤ 16 * 2 ^ 32) {k k2 : Key} {r r2 : RsaKey} {n e d : Int} {l : List Int}
    (hk : HoldsRsa k r) (hk2 : HoldsRsa k2 r2) (hr1 : E.R.construct [n, e] = .ok r)
    (hr2 : E.R.construct (n :: e :: d :: l) = .ok r2) (hsize : (2 : Int) ^ 1039 ≤ n)
    (hp : EncPicked (.rsa p) alg .none k) (hp2 : EncPicked (.rsa p) alg .none k2)
    (hkid : k.kid.truthy = false) :
    ∃ o t, Jwe.new E msg (rsaKw alg enc z) = .ok o ∧
      (o.encrypt E rnd [k]).1 = .ok t ∧
      ∀ rnd2, (p = .pkcs1 → rnd2.sentinel 0 ≠ rnd.key kl) →
        (Jwe.decrypt E {} rnd2 (utf8Encode t) [k2]).1 = .ok m := by
  obtain ⟨hn, he', -⟩ := hE.rsaLaw.construct_ne n e r hr1
  obtain ⟨hc, hn2, he2⟩ := C97_construct hE hr2
  refine C58_total hE.aesLaw hE.shaLaw hE.rsaLaw hZ hr hm he z hmsg hl hlz hk hk2
    ⟨hc, hn.trans hn2.symm, he'.trans he2.symm⟩ hp hp2 hkid fun c hcl => ?_
  have h130 : 130 ≤ Real.modLen r := Real.modLen_of_bits (by rw [hn]; exact hsize)
  obtain ⟨f, hf⟩ := hE.rsa
  unfold rsaEncrypterEncrypt
  simp only [rsaKeyArg, Bind.bind, Except.bind, hf]
  cases p with
  | pkcs1 =>
    simp only [Bool.false_eq_true, if_false]
    exact Real.enc15_total (by omega) _
  | oaep => exact Real.encOaep_total (a := .sha1) (by simp only [HashAlg.size]; omega) _
  | oaep256 => exact Real.encOaep_total (a := .sha256) (by simp only [HashAlg.size]; omega) _

/-! ### Examples -/

/-- The standard algorithms; no certificates, no network, no compression. -/
def stdEnv : Env where
  C := Real.aes
  H := Real.sha
  R := Real.rsa fun _ => .error .valueError
  Z := toyZlib
  jsonBytes := fun _ => .error .valueError
  httpGet := fun _ => .error .valueError

theorem stdEnv_standard : Standard stdEnv := ⟨rfl, rfl, _, rfl⟩

/-- RFC 3394 section 4.1: the key wrap of the library agrees with the published example. -/
example : aesWrapKey stdEnv.C [0x00, 0x01, 0x02, 0x03, 0x04, 0x05, 0x06, 0x07, 0x08, 0x09, 0x0a, 0x0b, 0x0c, 0x0d, 0x0e, 0x0f]
    [0x00, 0x11, 0x22, 0x33, 0x44, 0x55, 0x66, 0x77, 0x88, 0x99, 0xaa, 0xbb, 0xcc, 0xdd, 0xee, 0xff] =
    .ok [0x1f, 0xa6, 0x8b, 0x0a, 0x81, 0x12, 0xb4, 0x47, 0xae, 0xf3, 0x4b, 0xd8, 0xfb, 0x5a, 0x7b, 0x82,
      0x9d, 0x3e, 0x86, 0x23, 0x71, 0xd2, 0xcf, 0xe5] := by
  decide +kernel

end Verif
