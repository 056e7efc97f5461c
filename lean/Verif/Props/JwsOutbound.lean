import Verif.Props.JwsInterop
/-
C136: the signed tokens of the library, for other implementations.
-/

namespace Verif

namespace Spec

/-- The signature as RFC 7518 sections 3.2 to 3.5 prescribe it for the signer: for RS* the block with the NULL parameter, for ES* both
numbers at full width. -/
def RfcMade (k : Key) (input sig : Bytes) : SigAlg → Prop
  | .hs h => ∃ secret, k.key = .val (.bytes secret) ∧ sig = Real.shaHmac h secret input
  | .rs h => ∃ r em, k.key = .rsa r ∧ RsaOpensTo r sig em ∧
      SigBlock15 (Real.modLen r) (Real.digestPrefix h ++ Real.shaHash h input) em
  | .ps h => ∃ r, k.key = .rsa r ∧ RfcPss h r input sig
  | .es h => ∃ (C : NistCurve) (_ : Fact C.p.Prime) (x y : Int) (G Q : (ecurve C.p C.a C.b).Point) (e : Nat),
      CurveFor h C ∧ EcPoint k x y ∧ Rep (some C.G) G ∧ Rep (some (x, y)) Q ∧ sig.length = 2 * C.bytes ∧
      SignedNumber C.N (bytesToNat (Real.shaHash h input)) e ∧
      EcdsaValid (ecurve C.p C.a C.b) C.N G Q e (bytesToNat (sig.take C.bytes)) (bytesToNat (sig.drop C.bytes))

/-- The JWS compact serialization (RFC 7515 section 7.1): three unpadded base64url texts, the first one of a JSON text. -/
def RfcCompact (t : Bytes) (hdr : PyDict) (p input sig : Bytes) : Prop :=
  ∃ hs s0 s1 s2, t = s0 ++ 46 :: s1 ++ 46 :: s2 ∧ input = s0 ++ 46 :: s1 ∧
    IsB64Url (utf8Encode hs) s0 ∧ jsonLoads hs = .ok (.dict hdr) ∧ IsB64Url p s1 ∧ IsB64Url sig s2

end Spec

open Spec

theorem i2osp_opens {r : RsaKey} {em : Bytes} {s : Nat} (h : Real.rsaPriv r (bytesToNat em) = .ok s) :
    RsaOpensTo r (natToBytesW (Real.modLen r) s) em := by
  obtain ⟨-, hs, hp⟩ := Real.rsaPriv_ok h
  rw [Real.powMod_eq] at hp
  have := Real.os2ip_i2osp hs
  exact ⟨natToBytesW_length _ _, by rw [this]; exact hs, by rw [this]; exact hp⟩

/-- What the signers return. -/
theorem sign_rfc {E : Env} (hE : Standard E) {name : String} {a : SigAlg} (hn : SupportedAlg name a) {k : Key} (hown : OwnKey k a)
    {rnd : Nat} {input sig : Bytes} {ka : KeyArg} (hka : k.getKey true = .ok ka) (hs : a.sign E rnd input ka = .ok sig) :
    RfcMade k input sig a := by
  have hacc := sign_accepts hE.rsaLaw hown hka hs
  obtain ⟨f, hf⟩ := hE.rsa
  cases a with
  | hs h =>
    obtain ⟨-, secret, hk, rfl⟩ := hacc
    exact ⟨secret, hk, by rw [hE.hash]; rfl⟩
  | ps h =>
    obtain ⟨hne, r, hk, -⟩ := id hacc
    exact ⟨r, hk, (C135_ps hE hne hk h input sig).mp hacc⟩
  | rs h =>
    obtain ⟨hne, r, hk, -⟩ := hacc
    rw [getKey_not_ec hne, hk] at hka
    obtain rfl := Except.ok.inj hka
    simp only [SigAlg.sign, rsaKeyArg, Bind.bind, Except.bind] at hs
    rw [hf] at hs
    change Real.sign15 h r input = .ok sig at hs
    unfold Real.sign15 at hs
    simp only [Bind.bind] at hs
    obtain ⟨em, h1, hs⟩ := bind_ok_iff.mp hs
    obtain ⟨s, h2, hs⟩ := bind_ok_iff.mp hs
    obtain rfl := Except.ok.inj hs
    exact ⟨r, em, hk, i2osp_opens h2, Real.emsa15_iff.mp h1⟩
  | es h =>
    obtain ⟨C, crv, d, i, j, c, hC, hm, hi, hj, hpub⟩ := hown
    have hS : SoundCurve C := curveFor_sound hC
    have hp : Fact C.p.Prime := ⟨hS.p_prime⟩
    obtain ⟨G, hG, -⟩ := hS.base
    have hQ := C51_mulp hS.two_torsion (some C.G) G (d.fmod C.N).toNat hG
    change Rep (C.publicKeyFor _) _ at hQ
    rw [hpub] at hQ
    have hpt : EcPoint k i j := ⟨_, _, _, _, _, hm, rfl, rfl, hi, hj⟩
    obtain ⟨e, he, hv⟩ := (C135_es hE hn hC hG hpt hQ input sig).mp hacc
    refine ⟨C, hp, i, j, G, _, e, hC, hpt, hG, hQ, ?_, he, hv⟩
    simp only [Key.getKey, hm, if_true] at hka
    split at hka
    swap
    · simp at hka
    obtain rfl := Except.ok.inj hka
    have hC' := (esCurve_iff h C).mpr hC
    simp only [SigAlg.sign, Bind.bind, hC', Except.bind, esPriv, PyVal.asInt?] at hs
    split at hs
    · rename_i r hr
      subst hs
      exact (NistCurve.C52_roundtrip hS _ _ _ _ _ _ hr).2
    · simp at hs

/-- **C136.** Every token that `sign_compact` returns is a JWS compact serialization: unpadded base64url, the header as a JSON object with
the algorithm, the `kid` of the key that signed and the other members, the bytes of the message, and the signature that RFC 7518
prescribes under that key. -/
theorem C136_tokens {E : Env} (hE : Standard E) (o : Jwx) (keys : List Key) (hkne : keys ≠ [])
    (prot : PyDict) (rnd : Nat) (t name : String) (a : SigAlg) (hsup : SupportedAlg name a)
    (hA : AlgFor o keys (.str name)) (hp : (PyVal.dict prot).jsonable = true)
    (hkj : ∀ k ∈ keys, k.kid.jsonable = true)
    (hty : ∀ v, PyDict.get? o.dict "typ" = some v → v.jsonable = true)
    (hmsg : PartOk o.msg)
    (hown : ∀ kid, ∀ k ∈ keys, SignSuitable a name kid k → OwnKey k a)
    (h : (o.signCompact E keys prot rnd).1 = .ok t) :
    ∃ k ∈ keys, ∃ kid hdr p input sig, SignSuitable a name kid k ∧ RfcCompact (utf8Encode t) hdr p input sig ∧
      SignedHeader o prot (.str name) (some k) hdr ∧ PartBytes o.msg p ∧ RfcMade k input sig a := by
  obtain ⟨hnone, hne, -⟩ := supported_alg2keytype hsup
  obtain ⟨alg, key, s0, s1, hA', h0, h1, hc⟩ := signCompact_ok h
  have halg : alg = .str name := algFor_unique hA' hA
  subst halg
  rcases hc with ⟨h2, -, -⟩ | ⟨name', a', k, l, kid, ka, sig, h2, h3, rfl, hl, hkid, hfs, hka, hsig, h8⟩
  · cases h2; exact absurd (by decide) hnone
  cases h2
  have haa : a' = a := by
    have e1 := (signerOf_iff (.str name) a).mpr ⟨name, rfl, hsup⟩
    have e2 := (signerOf_iff (.str name) a').mpr ⟨name, rfl, h3⟩
    rw [e1] at e2
    simpa using e2.symm
  subst haa
  obtain rfl : l = keys := by
    rcases hl with ⟨-, h⟩ | ⟨h, -⟩
    · exact h
    · exact absurd h hkne
  obtain ⟨pre, post, hlk, hss, -⟩ := hfs
  have hkm : k ∈ l := by rw [hlk]; simp
  have hj := signHeader_jsonable o prot (.str name) (some k) hp rfl
    (by rintro x hx; cases hx; exact hkj _ hkm) hty
  have hspec := signHeader_spec o prot (.str name) (some k)
  obtain ⟨b, hb, hs, rfl, hlo⟩ := b64encodeItem_ok (.dict (signHeader o prot (.str name) (some k))) hj
  rw [hb] at h0
  obtain rfl := Except.ok.inj h0
  obtain ⟨p, hpb, hPB⟩ := b64encodeItem_ok o.msg hmsg
  rw [hpb] at h1
  obtain rfl := Except.ok.inj h1
  exact ⟨k, hkm, kid, _, p, _, sig, hss,
    ⟨hs, _, _, _, h8, rfl, C02_rfc4648 _, hlo, C02_rfc4648 _, C02_rfc4648 _⟩, hspec, hPB,
    sign_rfc hE hsup (hown kid k hkm hss) hka hsig⟩

/-- **C136.** For ES512 the digest itself is signed, always: it is below the order of the curve. -/
theorem C136_es512 {k : Key} {input sig : Bytes} (h : RfcMade k input sig (.es .sha512)) :
    ∃ (_ : Fact P521.p.Prime) (x y : Int) (G Q : (ecurve P521.p P521.a P521.b).Point), EcPoint k x y ∧ Rep (some P521.G) G ∧
      Rep (some (x, y)) Q ∧ sig.length = 132 ∧
      EcdsaValid (ecurve P521.p P521.a P521.b) P521.N G Q (bytesToNat (Real.shaHash .sha512 input)) (bytesToNat (sig.take 66))
        (bytesToNat (sig.drop 66)) := by
  obtain ⟨C, hp, x, y, G, Q, e, hC, hk, hG, hQ, hl, he, hv⟩ := h
  obtain rfl : C = P521 := (Except.ok.inj hC).symm
  have hb := bytesToNat_lt (Real.shaHash .sha512 input)
  rw [Real.shaHash_length] at hb
  have hN : (256 : Nat) ^ HashAlg.size .sha512 ≤ P521.N := by decide +kernel
  obtain rfl : e = bytesToNat (Real.shaHash .sha512 input) := by
    rcases he with ⟨-, he⟩ | ⟨he, -⟩
    · exact he
    · omega
  have h66 : P521.bytes = 66 := by decide +kernel
  rw [h66] at hl hv
  exact ⟨hp, x, y, G, Q, hk, hG, hQ, hl, hv⟩

/-! ### Examples -/

/-- An HMAC token with a message and a header member. -/
example (t : String) (h : (({ msg := .dict [("a", .int 1)], dict := [("alg", .str "HS256")] } : Jwx).signCompact stdEnv [exKey]
      [("cty", .str "x")] 0).1 = .ok t) :
    ∃ hdr p input, RfcCompact (utf8Encode t) hdr p input (Real.shaHmac .sha256 (ascii "k") input) ∧
      PyDict.get? hdr "alg" = some (.str "HS256") ∧ PyDict.get? hdr "cty" = some (.str "x") ∧
      PartBytes (.dict [("a", .int 1)]) p := by
  have hec : ¬ IsEc exKey := by rintro ⟨_, _, _, _, _, h⟩; simp [exKey] at h
  obtain ⟨k, hk, kid, hdr, p, input, sig, -, hc, hH, hP, secret, hs, rfl⟩ := C136_tokens stdEnv_standard
    { msg := .dict [("a", .int 1)], dict := [("alg", .str "HS256")] } [exKey] (by simp)
    [("cty", .str "x")] 0 t "HS256" (.hs .sha256) .HS256 (.inl ⟨rfl, rfl⟩) rfl
    (by intro k hk; simp at hk; subst hk; rfl) (by intro v h; exact absurd h (by simp [PyDict.get?, List.lookup])) rfl
    (fun _ k hk _ => by simp at hk; subst hk; exact hec) h
  simp at hk
  subst hk
  cases hs
  exact ⟨hdr, p, input, hc, hH.1, by rw [hH.2.2.2 "cty" (by decide) (by decide) (by decide)]; rfl, hP⟩

/-- That token exists. -/
example : ∃ t, (({ msg := .dict [("a", .int 1)], dict := [("alg", .str "HS256")] } : Jwx).signCompact stdEnv [exKey]
      [("cty", .str "x")] 0).1 = .ok t := by
  have h : ∀ {x : PyM String}, x.isOk = true → ∃ t, x = .ok t := by
    intro x h
    cases x with
    | error e => cases h
    | ok t => exact ⟨t, rfl⟩
  exact h (by decide +kernel)

/-- The private key of RFC 7515 A.3. -/
def exEsSigner : Key := { exEsKey with
  mat := .ec (.str "P-256")
    (.int 57807358241436249728379122087876380298924820027722995515715270765240753673285)
    (.int 90436541859143682268950424386863654389577770182238183823381687388274600502701)
    (.int 64502400493437371358766275827725703314178640739253280897215993954599262549170) (.val .none) }

theorem exEsSigner_own : OwnKey exEsSigner (.es .sha256) := by
  refine ⟨P256, _, _, _, _, _, exEs_curve, rfl, by decide, by decide, ?_⟩
  decide +kernel

/-- It signs, with any randomness for which `sign` ends, only 64-byte signatures that ECDSA accepts. -/
example (rnd : Nat) (t : String) (h : (({ msg := .str "{}", dict := [("alg", .str "ES256")] } : Jwx).signCompact stdEnv [exEsSigner]
      [] rnd).1 = .ok t) : ∃ hdr p input sig, RfcCompact (utf8Encode t) hdr p input sig ∧ RfcMade exEsSigner input sig (.es .sha256) := by
  obtain ⟨k, hk, kid, hdr, p, input, sig, -, hc, -, -, hm⟩ := C136_tokens stdEnv_standard
    { msg := .str "{}", dict := [("alg", .str "ES256")] } [exEsSigner] (by simp)
    [] rnd t "ES256" (.es .sha256) .ES256 (.inl ⟨rfl, rfl⟩) rfl
    (by intro k hk; simp at hk; subst hk; rfl) (by intro v h; exact absurd h (by simp [PyDict.get?, List.lookup])) (by trivial)
    (fun _ k hk _ => by simp at hk; subst hk; exact exEsSigner_own) h
  simp at hk
  subst hk
  exact ⟨hdr, p, input, sig, hc, hm⟩

/-- It does sign. -/
example : ((({ msg := .str "{}", dict := [("alg", .str "ES256")] } : Jwx).signCompact stdEnv [exEsSigner] [] 1).1).isOk = true := by
  decide +kernel

end Verif
