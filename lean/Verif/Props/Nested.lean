import Verif.Props.JwsTotal
/-
C101: nested tokens.  A token is signed, the result is encrypted as text; the receiver decrypts and hands
the bytes to verification (`/repo/src/jwkest/jws.py:450-505`, `/repo/src/jwkest/jwe.py:760-901`).
-/

namespace Verif
open Spec

/-- With these options and keys every text arrives: `JWE(text, **kw).encrypt([kE])` returns a token that
`JWE().decrypt(token, [kD])` turns into the text again.  `okRnd` restricts the random choices of the
receiver. -/
def Spec.Delivers (E : Env) (rnd : JweRnd) (kw : PyDict) (kE kD : Key) (okRnd : JweRnd → Prop) : Prop :=
  ∀ m : String, (utf8Encode m).length ≤ 16 * 2 ^ 32 →
    ∃ o c, Jwe.new E (.str m) kw = .ok o ∧ (o.encrypt E rnd [kE]).1 = .ok c ∧
      ∀ rnd2, okRnd rnd2 → (Jwe.decrypt E {} rnd2 (utf8Encode c) [kD]).1 = .ok (utf8Encode m)

/-- **C101.** A shared key delivers. -/
theorem C101_wrap {E : Env} (hE : Standard E) {rnd : JweRnd} (hr : RndLengths rnd)
    {alg enc : String} {n kl il : Nat} (hm : MgmtName alg (.wrap n)) (he : EncName enc kl il)
    {k : Key} {secret : Bytes} (hk : SharedKey k secret) (hp : EncPicked (.wrap n) alg .none k)
    (hkid : k.kid.truthy = false) :
    Delivers E rnd [("alg", .str alg), ("enc", .str enc)] k k fun _ => True := by
  intro m hl
  obtain ⟨o, t, h1, h2, h3⟩ := C97_wrap hE hr hm he m hl hk hp hkid
  exact ⟨o, t, h1, h2, fun rnd2 _ => h3 rnd2⟩

/-- **C101.** The halves of an RSA key of 1040 bits or more deliver.  With PKCS#1 v1.5 the random content key
of the receiver must differ from that of the sender. -/
theorem C101_rsa {E : Env} (hE : Standard E) (hZ : E.Z.Lawful) {rnd : JweRnd} (hr : RndLengths rnd)
    {alg enc : String} {p : RsaPad} {kl il : Nat} (hm : MgmtName alg (.rsa p)) (he : EncName enc kl il)
    {k k2 : Key} {r r2 : RsaKey} {n e d : Int} {l : List Int}
    (hk : HoldsRsa k r) (hk2 : HoldsRsa k2 r2) (hr1 : E.R.construct [n, e] = .ok r)
    (hr2 : E.R.construct (n :: e :: d :: l) = .ok r2) (hsize : (2 : Int) ^ 1039 ≤ n)
    (hp : EncPicked (.rsa p) alg .none k) (hp2 : EncPicked (.rsa p) alg .none k2)
    (hkid : k.kid.truthy = false) :
    Delivers E rnd (rsaKw alg enc false) k k2 fun rnd2 => p = .pkcs1 → rnd2.sentinel 0 ≠ rnd.key kl := by
  intro m hl
  exact C97_rsa hE hZ hr hm he false (.inl ⟨m, rfl, rfl⟩) hl (by simp) hk hk2 hr1 hr2 hsize hp hp2 hkid

/-- **C101.** A key on one of the curves delivers. -/
theorem C101_ecdh {E : Env} (hE : Standard E) {rnd : JweRnd} (hr : RndLengths rnd)
    (hu : rnd.apu.length < 2 ^ 32) (hv : rnd.apv.length < 2 ^ 32)
    {alg enc : String} {m : KeyMgmt} {kl il : Nat} (hm : MgmtName alg m) (hma : IsAgreement m)
    (he : EncName enc kl il) {k k2 : Key} {C : NistCurve} {X Y : Int} {D : Nat}
    (hk : HasPoint C X Y k) (hkd : HasScalar D k) (hk2 : HasScalar D k2)
    (hD : 0 < D ∧ D < C.N) (hpub : C.publicKeyFor D = some (X, Y))
    (heph : ∀ y, (C.keyPair rnd.eph).2 ≠ some (0, y))
    (hp : EncPicked m alg .none k) (hp2 : EncPicked m alg .none k2) (hkid : k.kid.truthy = false) :
    Delivers E rnd [("alg", .str alg), ("enc", .str enc)] k k2 fun _ => True := by
  intro msg hl
  obtain ⟨o, t, h1, h2, h3⟩ := C97_ecdh hE hr hu hv hm hma he (.inl ⟨msg, rfl, rfl⟩) hl hk hkd hk2 hD hpub heph
    hp hp2 hkid
  exact ⟨o, t, h1, h2, fun rnd2 _ => h3 rnd2⟩

/-- **C101.** Sign, encrypt, decrypt, verify. -/
theorem C101_nested {E : Env} (hE : Standard E) (o : Jwx) (keys : List Key) (hkne : keys ≠ [])
    (prot : PyDict) (rnd : Nat) (name : String) (a : SigAlg) (hsup : SupportedAlg name a)
    (hA : AlgFor o keys (.str name)) (kid : PyVal) (hkid : SignKid o kid) (k : Key)
    (hf : FirstSigner a name kid keys k) (hc : CanSign E a rnd k)
    (hself : PyDict.get? prot "self" = none) (hp : (PyVal.dict prot).jsonable = true)
    (hkj : ∀ k ∈ keys, k.kid.jsonable = true ∧ k.kid.pyEq k.kid = true)
    (hty : ∀ v, PyDict.get? o.dict "typ" = some v → v.jsonable = true)
    (hpk : ∀ k ∈ keys, k.kid.truthy = true ∨ ((PyDict.get? prot "kid").getD .none).truthy = false)
    (hcty : PyDict.get? prot "cty" = none ∨ ∃ c, PyDict.get? prot "cty" = some (.str c))
    (hmsg : PartOk o.msg) (hjb : JsonBytesLawful E.jsonBytes)
    (hsh : ∀ k ∈ keys, TypeFor a k.kty → Shaped k a)
    {jrnd : JweRnd} {kw : PyDict} {kE kD : Key} {okRnd : JweRnd → Prop} (hd : Delivers E jrnd kw kE kD okRnd) :
    ∃ t, (o.signCompact E keys prot rnd).1 = .ok t ∧ ((utf8Encode t).length ≤ 16 * 2 ^ 32 →
      ∃ w c, Jwe.new E (.str t) kw = .ok w ∧ (w.encrypt E jrnd [kE]).1 = .ok c ∧
        ∀ rnd2, okRnd rnd2 → ∃ b, (Jwe.decrypt E {} rnd2 (utf8Encode c) [kD]).1 = .ok b ∧
          ∀ an sigalg, (sigalg.truthy = true → sigalg = .str name) →
            ∃ m k' hdr p key, (({} : Jwx).verifyVerbose E b keys an sigalg).1 = .ok (m, some k') ∧
              SignedHeader o prot (.str name) (some key) hdr ∧ PartBytes o.msg p ∧
              Message E.jsonBytes hdr p m) := by
  obtain ⟨t, ht, hv⟩ := C100_sign_verify hE o keys hkne prot rnd name a hsup hA kid hkid k hf hc hself hp hkj hty hpk
    hcty hmsg hjb hsh
  refine ⟨t, ht, fun hl => ?_⟩
  obtain ⟨w, c, h1, h2, h3⟩ := hd t hl
  exact ⟨w, c, h1, h2, fun rnd2 h => ⟨_, h3 rnd2 h, hv⟩⟩

/-- **C101.** The claims of a JSON message arrive unchanged. -/
theorem C101_claims {E : Env} (hE : Standard E) (o : Jwx) (claims : PyDict) (hm : o.msg = .dict claims)
    (hcl : (PyVal.dict claims).jsonable = true) (keys : List Key) (hkne : keys ≠ [])
    (rnd : Nat) (name : String) (a : SigAlg) (hsup : SupportedAlg name a)
    (hA : AlgFor o keys (.str name)) (kid : PyVal) (hkid : SignKid o kid) (k : Key)
    (hf : FirstSigner a name kid keys k) (hc : CanSign E a rnd k)
    (hkj : ∀ k ∈ keys, k.kid.jsonable = true ∧ k.kid.pyEq k.kid = true)
    (hty : ∀ v, PyDict.get? o.dict "typ" = some v → v.jsonable = true)
    (hjb : JsonBytesLawful E.jsonBytes) (hsh : ∀ k ∈ keys, TypeFor a k.kty → Shaped k a)
    {jrnd : JweRnd} {kw : PyDict} {kE kD : Key} {okRnd : JweRnd → Prop} (hd : Delivers E jrnd kw kE kD okRnd) :
    ∃ t, (o.signCompact E keys [] rnd).1 = .ok t ∧ ((utf8Encode t).length ≤ 16 * 2 ^ 32 →
      ∃ w c, Jwe.new E (.str t) kw = .ok w ∧ (w.encrypt E jrnd [kE]).1 = .ok c ∧
        ∀ rnd2, okRnd rnd2 → ∃ b, (Jwe.decrypt E {} rnd2 (utf8Encode c) [kD]).1 = .ok b ∧
          ∀ an sigalg, (sigalg.truthy = true → sigalg = .str name) →
            ∃ k', (({} : Jwx).verifyVerbose E b keys an sigalg).1 = .ok (.dict claims, some k')) := by
  obtain ⟨t, ht, h⟩ := C101_nested hE o keys hkne [] rnd name a hsup hA kid hkid k hf hc rfl rfl hkj hty
    (fun _ _ => .inr rfl) (.inl rfl) (by rw [hm]; exact hcl) hjb hsh hd
  refine ⟨t, ht, fun hl => ?_⟩
  obtain ⟨w, c, h1, h2, h3⟩ := h hl
  refine ⟨w, c, h1, h2, fun rnd2 hr => ?_⟩
  obtain ⟨b, h4, h5⟩ := h3 rnd2 hr
  refine ⟨b, h4, fun an sigalg hsa => ?_⟩
  obtain ⟨m, k', hdr, p, key, h6, hS, hP, hM⟩ := h5 an sigalg hsa
  have hc : PyDict.get? hdr "cty" = none := by
    rw [hS.2.2.2 "cty" (by decide) (by decide) (by decide)]
    rfl
  rw [C11_json_message _ hdr p o.msg m (.inl ⟨claims, hm⟩) hP hc hM, hm] at h6
  exact ⟨k', h6⟩

/-! ### Example: PS512 inside RSA-OAEP-256, the key of 1042 bits for both -/

theorem bigKey_delivers : Delivers stdEnv exRnd (rsaKw "RSA-OAEP-256" "A256GCM" false)
    (bigKey ⟨(bigP * bigQ : Nat), 65537, none⟩) (bigKey bigRsa) (fun _ => True) := by
  intro m hl
  obtain ⟨o, c, h1, h2, h3⟩ := C101_rsa stdEnv_standard (E := stdEnv) toyZlib_lawful exRnd_lengths .oaep256 .g256
    (k := bigKey ⟨(bigP * bigQ : Nat), 65537, none⟩) (k2 := bigKey bigRsa)
    (bigKey_holds _) (bigKey_holds _) bigPublic_construct bigRsa_construct bigRsa_size
    ⟨.inr (.inl rfl), by decide, by decide, by decide⟩ ⟨.inr (.inl rfl), by decide, by decide, by decide⟩
    (by decide) m hl
  exact ⟨o, c, h1, h2, fun rnd2 _ => h3 rnd2 (by intro h; cases h)⟩

example (rnd : Nat) (n : Int) :
    ∃ t, (({ msg := .dict [("n", .int n)], dict := [("alg", .str "PS512")] } : Jwx).signCompact stdEnv
      [bigKey bigRsa] [] rnd).1 = .ok t ∧ ((utf8Encode t).length ≤ 16 * 2 ^ 32 →
      ∃ w c, Jwe.new stdEnv (.str t) (rsaKw "RSA-OAEP-256" "A256GCM" false) = .ok w ∧
        (w.encrypt stdEnv exRnd [bigKey ⟨(bigP * bigQ : Nat), 65537, none⟩]).1 = .ok c ∧
        ∀ rnd2, True → ∃ b, (Jwe.decrypt stdEnv {} rnd2 (utf8Encode c) [bigKey bigRsa]).1 = .ok b ∧
          ∀ an sigalg, (sigalg.truthy = true → sigalg = .str "PS512") →
            ∃ k', (({} : Jwx).verifyVerbose stdEnv b [bigKey bigRsa] an sigalg).1 =
              .ok (.dict [("n", .int n)], some k')) :=
  C101_claims stdEnv_standard _ [("n", .int n)] rfl rfl
    [bigKey bigRsa] (by simp) rnd "PS512" (.ps .sha512) .PS512 (.inl ⟨rfl, rfl⟩) .none
    (.inr ⟨rfl, .inl ⟨rfl, rfl⟩⟩) (bigKey bigRsa)
    ⟨[], [], rfl, ⟨⟨.inr (.inl rfl), by decide, by decide⟩, by decide⟩, by simp⟩
    (C100_rsa stdEnv_standard (.inr rfl) rnd (bigKey_holds _) bigRsa_consistent bigRsa_size)
    (by intro k hk; simp at hk; subst hk; exact ⟨rfl, rfl⟩)
    (by intro v h; exact absurd h (by simp [PyDict.get?, List.lookup]))
    (by intro b e h; cases h; rfl)
    (by intro k hk _; simp at hk; subst hk; exact ⟨not_ec (m := .rsa _) rfl (by simp), _, rfl⟩)
    bigKey_delivers

end Verif
