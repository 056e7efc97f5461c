import Verif.Props.Publish
/-!
Property C100: `sign_compact` returns a token whenever there is a key to sign with, and says so when
there is none (`/repo/src/jwkest/jws.py:450-505`).
-/

namespace Verif
open Spec

/-! ### RSA signatures with a key that is long enough -/

namespace Real

theorem rsaPriv_total {k : RsaKey} (hk : k.Consistent) {c : Nat} (hc : c < modulus k) :
    ∃ m, rsaPriv k c = .ok m := by
  obtain ⟨e, d, p, q, he, hn, hpriv, hp, hq, hne, h1, h2⟩ := hk
  have hmk : modulus k = p * q := by unfold modulus; rw [hn]; rfl
  have hinv := rsa_inverse (e := d) (d := e) hp hq hne (by rw [Nat.mul_comm]; exact h1)
    (by rw [Nat.mul_comm]; exact h2) (hmk ▸ hc)
  refine ⟨powMod c d (p * q), ?_⟩
  unfold rsaPriv
  rw [if_pos hc, hpriv, hmk, he]
  simp only [Int.toNat_natCast, powMod_eq, hinv, if_true]

theorem digestPrefix_length (a : HashAlg) : (digestPrefix a).length ≤ 19 := by cases a <;> decide

theorem sign15_total {k : RsaKey} (hk : k.Consistent) (a : HashAlg) (hl : 30 + a.size ≤ modLen k) (m : Bytes) :
    ∃ s, sign15 a k m = .ok s := by
  have hd := digestPrefix_length a
  have hlen : (digestPrefix a ++ shaHash a m).length ≤ 19 + a.size := by
    rw [List.length_append, shaHash_length]; omega
  unfold sign15
  generalize digestPrefix a ++ shaHash a m = info at hlen ⊢
  have hem : emsa15 (modLen k) info =
      .ok (0 :: 1 :: (List.replicate (modLen k - info.length - 3) 0xff ++ 0 :: info)) := by
    unfold emsa15; rw [if_neg (by omega)]
  have hlt : bytesToNat (0 :: 1 :: (List.replicate (modLen k - info.length - 3) 0xff ++ 0 :: info)) <
      modulus k := by
    have h1 := bytesToNat_zero_cons (1 :: (List.replicate (modLen k - info.length - 3) 0xff ++ 0 :: info))
    refine lt_modulus (by omega) (lt_of_lt_of_le h1 (Nat.pow_le_pow_right (by omega) ?_))
    simp only [List.length_cons, List.length_append, List.length_replicate]
    omega
  obtain ⟨s, hs⟩ := rsaPriv_total hk hlt
  exact ⟨natToBytesW (modLen k) s, by simp only [hem, Bind.bind, Except.bind, hs]⟩

theorem and_mask_lt (b : UInt8) : ∀ j, j ≤ 8 → (b &&& UInt8.ofNat (2 ^ j - 1)).toNat < 2 ^ j := by
  intro j hj
  rw [UInt8.toNat_and]
  refine lt_of_le_of_lt Nat.and_le_right ?_
  have : 2 ^ j ≤ 256 := (Nat.pow_le_pow_right (by omega) hj).trans (by norm_num)
  have h1 : 1 ≤ 2 ^ j := Nat.one_le_two_pow
  rw [UInt8.toNat_ofNat']
  rw [Nat.mod_eq_of_lt (by omega)]
  omega

/-- The encoding is smaller than two to the number of bits. -/
theorem emsaPss_lt {a : HashAlg} {emBits rnd : Nat} {m em : Bytes} (h : emsaPss a emBits rnd m = .ok em) :
    bytesToNat em < 2 ^ emBits := by
  have hlen := emsaPss_length h
  unfold emsaPss at h
  simp only at h
  split at h
  · simp at h
  rename_i hl
  obtain rfl := Except.ok.inj h
  have hsz : 0 < (emBits + 7) / 8 := by omega
  generalize hx : xorBytes _ _ = x at hlen ⊢
  generalize shaHash a _ ++ [0xbc] = y at hlen ⊢
  cases x with
  | nil =>
    exfalso
    have hxl := congrArg List.length hx
    simp only [xorBytes, List.length_zipWith, List.length_append, List.length_replicate, List.length_cons,
      mgf1_length, List.length_nil, rndBytes, natToBytesW_length] at hxl
    omega
  | cons b l =>
    simp only [maskFirst, List.cons_append, List.length_cons, List.length_append] at hlen ⊢
    rw [show ∀ (c : UInt8) (r : Bytes), c :: r = [c] ++ r from fun _ _ => rfl, bytesToNat_append]
    have hb : bytesToNat [b &&& pssMask emBits ((emBits + 7) / 8)] =
        (b &&& pssMask emBits ((emBits + 7) / 8)).toNat := by simp [bytesToNat]
    rw [hb]
    have h1 := and_mask_lt b (8 - (8 * ((emBits + 7) / 8) - emBits)) (by omega)
    have h2 := bytesToNat_lt (l ++ y)
    change (b &&& pssMask emBits ((emBits + 7) / 8)).toNat < _ at h1
    generalize (b &&& pssMask emBits ((emBits + 7) / 8)).toNat = u at h1 ⊢
    have h3 : 2 ^ emBits = 2 ^ (8 - (8 * ((emBits + 7) / 8) - emBits)) * 256 ^ (l ++ y).length := by
      rw [show (256 : Nat) = 2 ^ 8 from rfl, ← Nat.pow_mul, ← Nat.pow_add]
      congr 1
      rw [List.length_append]
      omega
    rw [h3]
    generalize 256 ^ (l ++ y).length = w at h2 ⊢
    nlinarith

theorem signPss_total {k : RsaKey} (hk : k.Consistent) (a : HashAlg) (hl : 2 * a.size + 2 ≤ (bitLen (modulus k) + 6) / 8) (rnd : Nat)
    (m : Bytes) : ∃ s, signPss a k rnd m = .ok s := by
  have hem : ∃ em, emsaPss a (bitLen (modulus k) - 1) rnd m = .ok em := by
    unfold emsaPss
    rw [if_neg (by have : 1 ≤ bitLen (modulus k) := by omega
                   omega)]
    exact ⟨_, rfl⟩
  obtain ⟨em, hem⟩ := hem
  have hne : modulus k ≠ 0 := by
    intro h0
    rw [h0] at hl
    simp [bitLen] at hl
  obtain ⟨s, hs⟩ := rsaPriv_total hk (lt_of_lt_of_le (emsaPss_lt hem) (bitLen_le hne))
  exact ⟨natToBytesW (modLen k) s, by simp only [signPss, hem, Bind.bind, Except.bind, hs]⟩

end Real

/-! ### Signing -/

/-- The key can sign: it has what the algorithm needs, and the primitive answers every input. -/
def Spec.CanSign (E : Env) (a : SigAlg) (rnd : Nat) (k : Key) : Prop :=
  ∃ ka, k.getKey true = .ok ka ∧ ∀ input, ∃ sig, a.sign E rnd input ka = .ok sig

theorem firstSigner_unique {a : SigAlg} {name : String} {kid : PyVal} {keys : List Key} {k k' : Key}
    (h : FirstSigner a name kid keys k) (h' : FirstSigner a name kid keys k') : k = k' := by
  obtain ⟨p, q, rfl, hk, hp⟩ := h
  obtain ⟨p', q', he, hk', hp'⟩ := h'
  induction p generalizing p' with
  | nil =>
    cases p' with
    | nil => simp at he; exact he.1
    | cons x l =>
      simp at he
      exact absurd hk (by rw [he.1]; exact hp' x (by simp))
  | cons x l ih =>
    cases p' with
    | nil =>
      simp at he
      exact absurd hk' (by rw [← he.1]; exact hp x (by simp))
    | cons y l' =>
      simp at he
      exact ih (fun z hz => hp z (by simp [hz])) l' he.2 (fun z hz => hp' z (by simp [hz]))

/-- What `alg_keys` picks for a supported algorithm from the caller's keys. -/
theorem algKeys_supported (E : Env) (o : Jwx) (keys : List Key) (hkne : keys ≠ []) (prot : PyDict) (name : String)
    (a : SigAlg) (hsup : SupportedAlg name a) (hA : AlgFor o keys (.str name)) (kid : PyVal)
    (hkid : SignKid o kid) :
    ∃ o1, (∀ n, n ≠ "alg" → PyDict.get? o1.dict n = PyDict.get? o.dict n) ∧ o1.msg = o.msg ∧
      ((∃ k, FirstSigner a name kid keys k ∧ o.algKeys E keys "sig" prot =
          (.ok (some k, if k.kid.truthy then PyDict.set (PyDict.set prot "alg" (.str name)) "kid" k.kid
            else PyDict.set prot "alg" (.str name), .str name), o1)) ∨
       ((∀ k ∈ keys, ¬ SignSuitable a name kid k) ∧
          o.algKeys E keys "sig" prot = (.error .noSuitableSigningKeys, o1))) := by
  have hsp := pickAlg_spec o keys
  obtain ⟨hmsg, hjwk, hjwt, hdict⟩ := pickAlg_state o keys
  have halg := algFor_unique hsp hA
  obtain ⟨hnone, hne, kt, hkt, hty⟩ := supported_alg2keytype hsup
  have hnn : name ≠ "none" := by intro h; subst h; exact hnone (by decide)
  refine ⟨(o.pickAlg keys).2, hdict, hmsg, ?_⟩
  unfold Jwx.algKeys
  generalize o.pickAlg keys = pa at *
  obtain ⟨alg', o1⟩ := pa
  simp only at hmsg hjwk hjwt hdict halg ⊢
  subst halg
  have hwk : o1.wantedKid = .ok kid := by
    apply wantedKid_of_signKid
    unfold SignKid at hkid ⊢
    rw [hdict "kid" (by decide), hjwt]
    exact hkid
  have hsrc : o1.keySource E keys = .ok (keys.map JKey.key) := by
    unfold Jwx.keySource
    rw [if_neg (by simpa using hkne)]
  have hpick := pickKeys_str o1 name kt keys "sig" hne hnn hkt (.str name) (.inl rfl) kid hwk
  rw [List.filter_filter] at hpick
  have hmem : ∀ x, (keyPasses kid "sig" (.str name) x && ktyMatches kt x.kty) = true ↔
      SignSuitable a name kid x := by
    intro x
    rw [Bool.and_eq_true, hty, keyPasses_iff kid "sig" name hne]
    simp only [SignSuitable, Suitable, ne_eq, show ¬ ("sig" = "") by decide, not_false_eq_true,
      forall_const]
    tauto
  simp only [Bind.bind, Except.bind, hsrc, hpick]
  generalize hf : keys.filter (fun x => keyPasses kid "sig" (.str name) x && ktyMatches kt x.kty) = ks
  rcases ks with _ | ⟨k, l⟩
  · right
    refine ⟨fun k hk hs => ?_, ?_⟩
    · have := (List.mem_filter (p := fun x => keyPasses kid "sig" (.str name) x &&
        ktyMatches kt x.kty)).mpr ⟨hk, (hmem k).mpr hs⟩
      rw [hf] at this
      simp at this
    · have hin : isNoneAlg (.str name) = .ok false := by
        cases hsup <;> decide
      simp only [hin]
      rfl
  · left
    obtain ⟨l1, l2, hl, hl1, -, hk⟩ := filter_split _ _ [] k l (by simpa using hf)
    refine ⟨k, ⟨l1, l2, hl, (hmem k).mp hk, fun x hx hs => ?_⟩, rfl⟩
    have := (List.mem_filter (p := fun x => keyPasses kid "sig" (.str name) x &&
      ktyMatches kt x.kty)).mpr ⟨hx, (hmem x).mpr hs⟩
    rw [hl1] at this
    simp at this

/-- **C100.** No usable key among the given ones: `NoSuitableSigningKeys`. -/
theorem C100_no_key (E : Env) (o : Jwx) (keys : List Key) (hkne : keys ≠ []) (prot : PyDict) (rnd : Nat)
    (name : String) (a : SigAlg) (hsup : SupportedAlg name a) (hA : AlgFor o keys (.str name)) (kid : PyVal)
    (hkid : SignKid o kid) (hno : ∀ k ∈ keys, ¬ SignSuitable a name kid k) :
    (o.signCompact E keys prot rnd).1 = .error .noSuitableSigningKeys := by
  obtain ⟨o1, -, -, ⟨k, ⟨pre, post, rfl, hk, -⟩, -⟩ | ⟨-, h⟩⟩ :=
    algKeys_supported E o keys hkne prot name a hsup hA kid hkid
  · exact absurd hk (hno k (by simp))
  · unfold Jwx.signCompact
    rw [h]

/-- **C100.** The first usable key can sign, and message and header members are JSON values: there is a
token. -/
theorem C100_signs (E : Env) (o : Jwx) (keys : List Key) (hkne : keys ≠ []) (prot : PyDict) (rnd : Nat)
    (name : String) (a : SigAlg) (hsup : SupportedAlg name a) (hA : AlgFor o keys (.str name)) (kid : PyVal)
    (hkid : SignKid o kid) (k : Key) (hf : FirstSigner a name kid keys k) (hc : CanSign E a rnd k)
    (hself : PyDict.get? prot "self" = none) (hp : (PyVal.dict prot).jsonable = true)
    (hkj : k.kid.jsonable = true) (hty : ∀ v, PyDict.get? o.dict "typ" = some v → v.jsonable = true)
    (hmsg : PartOk o.msg) : ∃ t, (o.signCompact E keys prot rnd).1 = .ok t := by
  obtain ⟨o1, hdict, hm1, ⟨k', hf', h⟩ | ⟨hno, -⟩⟩ :=
    algKeys_supported E o keys hkne prot name a hsup hA kid hkid
  swap
  · obtain ⟨pre, post, rfl, hk, -⟩ := hf
    exact absurd hk (hno k (by simp))
  obtain rfl : k' = k := firstSigner_unique hf' hf
  obtain ⟨hnone, -, -⟩ := supported_alg2keytype hsup
  have hnn : (PyVal.str name) ≠ .str "none" := by intro h; cases h; exact hnone (by decide)
  have hjs := signHeader_jsonable o prot (.str name) (some k') hp rfl (by rintro x ⟨⟩; exact hkj) hty
  have hspec := signHeader_spec o prot (.str name) (some k')
  obtain ⟨b, p, hinit⟩ := jwt_init_ok (signHeader o prot (.str name) (some k'))
    (by rw [hspec.2.2.2 "self" (by decide) (by decide) (by decide)]; exact hself) hjs
    (by rw [hspec.1]; exact algFor_truthy hA)
  obtain ⟨s, hdr, bs, hpk, -⟩ := pack_text ⟨.dict (signHeader o prot (.str name) (some k')), [b], [p]⟩ _ rfl
    (signHeader_ne_nil _ _ _ _) hjs [o.msg] (by simp) (by simpa using hmsg)
  obtain ⟨ka, hka, hsig⟩ := hc
  obtain ⟨sig, hsig⟩ := hsig (utf8Encode s)
  obtain ⟨ss, hss⟩ := utf8Decode_ascii (b64e_ascii sig)
  refine ⟨strJoin [s, ss], ?_⟩
  unfold Jwx.signCompact
  rw [h]
  simp only
  rw [hdict "typ" (by decide)]
  erw [hinit]
  simp only [Bind.bind, Except.bind, hnn, if_false, (signerOf_iff (.str name) a).mpr ⟨name, rfl, hsup⟩, hm1, hpk,
    hka, hsig, hss.1]

/-! ### Which keys can sign -/

/-- **C100.** A secret signs with HMAC. -/
theorem C100_hmac (E : Env) (h : HashAlg) (rnd : Nat) {k : Key} {secret : Bytes} (hn : ¬ IsEc k)
    (hk : k.key = .val (.bytes secret)) : CanSign E (.hs h) rnd k :=
  ⟨_, getKey_not_ec hn true, fun input => ⟨E.H.hmac h secret input, by rw [hk]; rfl⟩⟩

set_option exponentiation.threshold 2000 in
theorem Real.bitLen_of_bits {r : RsaKey} (h : (2 : Int) ^ 1039 ≤ r.n) : 1040 ≤ bitLen (modulus r) := by
  have h1 : 2 ^ 1039 ≤ modulus r := by
    unfold modulus
    omega
  have h2 := lt_bitLen (modulus r)
  by_contra hc
  have : 2 ^ bitLen (modulus r) ≤ 2 ^ 1039 := Nat.pow_le_pow_right (by norm_num) (by omega)
  omega

/-- **C100.** A consistent RSA key of 1040 bits or more signs, with both paddings and all hash functions. -/
theorem C100_rsa {E : Env} (hE : Standard E) {a : SigAlg} {h : HashAlg} (ha : a = .rs h ∨ a = .ps h) (rnd : Nat)
    {k : Key} {r : RsaKey} (hk : HoldsRsa k r) (hc : r.Consistent) (hn : (2 : Int) ^ 1039 ≤ r.n) :
    CanSign E a rnd k := by
  obtain ⟨⟨m, hm⟩, hk⟩ := hk
  have hs : h.size ≤ 64 := by cases h <;> decide
  have hb := Real.bitLen_of_bits hn
  have hl := Real.modLen_of_bits hn
  obtain ⟨f, hf⟩ := hE.rsa
  refine ⟨_, getKey_not_ec (not_ec hm (by simp)) true, fun input => ?_⟩
  rw [hk]
  rcases ha with rfl | rfl
  · simp only [SigAlg.sign, rsaKeyArg, Bind.bind, Except.bind, hf]
    exact Real.sign15_total hc h (by omega) input
  · simp only [SigAlg.sign, rsaKeyArg, Bind.bind, Except.bind, hf]
    exact Real.signPss_total hc h (by omega) rnd input

/-- **C100.** With HMAC or RSA and the standard algorithms, signing succeeds and verification with the same
keys accepts the token and returns the message. -/
theorem C100_sign_verify {E : Env} (hE : Standard E) (o : Jwx) (keys : List Key) (hkne : keys ≠ [])
    (prot : PyDict) (rnd : Nat) (name : String) (a : SigAlg) (hsup : SupportedAlg name a)
    (hA : AlgFor o keys (.str name)) (kid : PyVal) (hkid : SignKid o kid) (k : Key)
    (hf : FirstSigner a name kid keys k) (hc : CanSign E a rnd k)
    (hself : PyDict.get? prot "self" = none) (hp : (PyVal.dict prot).jsonable = true)
    (hkj : ∀ k ∈ keys, k.kid.jsonable = true ∧ k.kid.pyEq k.kid = true)
    (hty : ∀ v, PyDict.get? o.dict "typ" = some v → v.jsonable = true)
    (hpk : ∀ k ∈ keys, k.kid.truthy = true ∨ ((PyDict.get? prot "kid").getD .none).truthy = false)
    (hcty : PyDict.get? prot "cty" = none ∨ ∃ c, PyDict.get? prot "cty" = some (.str c))
    (hmsg : PartOk o.msg) (hjb : JsonBytesLawful E.jsonBytes)
    (hsh : ∀ k ∈ keys, TypeFor a k.kty → Shaped k a) :
    ∃ t, (o.signCompact E keys prot rnd).1 = .ok t ∧
      ∀ an sigalg, (sigalg.truthy = true → sigalg = .str name) →
        ∃ m k hdr p key, (({} : Jwx).verifyVerbose E (utf8Encode t) keys an sigalg).1 = .ok (m, some k) ∧
          SignedHeader o prot (.str name) (some key) hdr ∧ PartBytes o.msg p ∧
          Message E.jsonBytes hdr p m := by
  have hmem : k ∈ keys := by
    obtain ⟨pre, post, rfl, -, -⟩ := hf
    simp
  obtain ⟨t, ht⟩ := C100_signs E o keys hkne prot rnd name a hsup hA kid hkid k hf hc hself hp (hkj k hmem).1 hty
    hmsg
  exact ⟨t, ht, fun an sigalg hsa => C97_jws_any hE o keys hkne prot rnd t name a hsup hA hp hkj hty hpk hcty
    hmsg hjb hsh ht an sigalg hsa⟩

/-! ### A key of 1042 bits -/

/-- Its primes are the order of the field and of the group of P-521. -/
def bigP : Nat := 6864797660130609714981900799081393217269435300143305409394463459185543183397656052122559640661454554977296311391480858037121987999716643812574028291115057151
@[inherit_doc bigP]
def bigQ : Nat := 6864797660130609714981900799081393217269435300143305409394463459185543183397655394245057746333217197532963996371363321113864768612440380340372808892707005449
/-- The private exponent for 65537. -/
def bigD : Nat := 1506770708815457055810108944355272760520864627853383158628773991992090725647738725179882473727500925088736203494975510514221270996884517160608776775179919346860991468547766761486581213390796069068744940828563904704161022232521686788442564029256124564944874764197720325278704550895789570081628920820768360214653473

@[inherit_doc bigP]
def bigRsa : RsaKey := ⟨(bigP * bigQ : Nat), 65537, some (bigD, bigP, bigQ)⟩

theorem bigRsa_consistent : bigRsa.Consistent :=
  ⟨65537, bigD, bigP, bigQ, rfl, rfl, rfl, prime_p521, prime_n521, by decide +kernel, by decide +kernel,
    by decide +kernel⟩

theorem construct_private {n e d p q : Int} (h : Real.privateOk n e d p q = true) :
    stdEnv.R.construct [n, e, d, p, q] = .ok ⟨n, e, some (d, p, q)⟩ :=
  (if_pos h : (if Real.privateOk n e d p q = true then _ else (.error .valueError : PyM RsaKey)) = _)

theorem construct_public {n e : Int} (h : Real.publicOk n e = true) :
    stdEnv.R.construct [n, e] = .ok ⟨n, e, none⟩ :=
  (if_pos h : (if Real.publicOk n e = true then _ else (.error .valueError : PyM RsaKey)) = _)

/-- `RSA.construct` accepts it. -/
theorem bigRsa_construct : stdEnv.R.construct [(bigP * bigQ : Nat), 65537, bigD, bigP, bigQ] = .ok bigRsa := by
  have h : Real.privateOk (bigP * bigQ : Nat) 65537 bigD bigP bigQ = true := by
    have h1 : decide ((bigP : Int).toNat.Prime) = true := decide_eq_true prime_p521
    have h2 : decide ((bigQ : Int).toNat.Prime) = true := decide_eq_true prime_n521
    unfold Real.privateOk
    rw [h1, h2]
    decide +kernel
  exact construct_private h

theorem bigPublic_construct :
    stdEnv.R.construct [(bigP * bigQ : Nat), 65537] = .ok ⟨(bigP * bigQ : Nat), 65537, none⟩ := by
  have h : Real.publicOk (bigP * bigQ : Nat) 65537 = true := by decide +kernel
  exact construct_public h

/-- The key object, private and public half. -/
def bigKey (r : RsaKey) : Key :=
  ⟨.str "RSA", .str "", .str "", .str "", .rsa r, .list [], .str "", .str "", [], none,
    .rsa ⟨.int r.n, .int r.e, .str "", .str "", .str "", .str "", .str "", .str "", .str ""⟩⟩

theorem bigKey_holds (r : RsaKey) : HoldsRsa (bigKey r) r := ⟨⟨_, rfl⟩, rfl⟩

set_option exponentiation.threshold 2000 in
theorem bigRsa_size : (2 : Int) ^ 1039 ≤ bigRsa.n := by decide +kernel

/-- Every text is signed with the strongest algorithm, and accepted again. -/
example (m : String) (rnd : Nat) :
    ∃ t, (({ msg := .str m, dict := [("alg", .str "PS512")] } : Jwx).signCompact stdEnv [bigKey bigRsa] [] rnd).1 =
      .ok t ∧ ∃ v k, (({} : Jwx).verifyVerbose stdEnv (utf8Encode t) [bigKey bigRsa] false .none).1 = .ok (v, some k) := by
  obtain ⟨t, h1, h2⟩ := C100_sign_verify stdEnv_standard { msg := .str m, dict := [("alg", .str "PS512")] }
    [bigKey bigRsa] (by simp) [] rnd "PS512" (.ps .sha512) .PS512 (.inl ⟨rfl, rfl⟩) .none
    (.inr ⟨rfl, .inl ⟨rfl, rfl⟩⟩) (bigKey bigRsa)
    ⟨[], [], rfl, ⟨⟨.inr (.inl rfl), by decide, by decide⟩, by decide⟩, by simp⟩
    (C100_rsa stdEnv_standard (.inr rfl) rnd (bigKey_holds _) bigRsa_consistent bigRsa_size) rfl rfl
    (by intro k hk; simp at hk; subst hk; exact ⟨rfl, rfl⟩)
    (by intro v h; exact absurd h (by simp [PyDict.get?, List.lookup])) (by intro k _; right; rfl) (.inl rfl)
    trivial (by intro b e h; cases h; rfl)
    (by intro k hk _; simp at hk; subst hk; exact ⟨not_ec (m := .rsa _) rfl (by simp), _, rfl⟩)
  obtain ⟨v, k, -, -, -, h3, -⟩ := h2 false .none (by simp [none_truthy])
  exact ⟨t, h1, v, k, h3⟩

/-- A key for encryption only does not sign. -/
example : (({ msg := .str "a", dict := [("alg", .str "HS256")] } : Jwx).signCompact stdEnv
    [{ exSym with use := .str "enc" }, bigKey bigRsa] [] 0).1 = .error .noSuitableSigningKeys :=
  C100_no_key stdEnv _ _ (by simp) [] 0 "HS256" (.hs .sha256) .HS256 (.inl ⟨rfl, rfl⟩) .none
    (.inr ⟨rfl, .inl ⟨rfl, rfl⟩⟩) (by
      intro k hk hs
      simp only [List.mem_cons, List.not_mem_nil, or_false] at hk
      rcases hk with rfl | rfl
      · exact absurd (hs.2 (by decide)) (by decide)
      · rcases spelled_str hs.1.1 with h | h <;> exact absurd h (by decide))

/-- Every text is encrypted for the public half and decrypted by the private half. -/
example (m : String) (hl : (utf8Encode m).length ≤ 16 * 2 ^ 32) :
    ∃ o t, Jwe.new stdEnv (.str m) (rsaKw "RSA-OAEP-256" "A256GCM" false) = .ok o ∧
      (o.encrypt stdEnv exRnd [bigKey ⟨(bigP * bigQ : Nat), 65537, none⟩]).1 = .ok t ∧
      ∀ rnd2, (Jwe.decrypt stdEnv {} rnd2 (utf8Encode t) [bigKey bigRsa]).1 = .ok (utf8Encode m) := by
  obtain ⟨o, t, h1, h2, h3⟩ := C97_rsa stdEnv_standard (E := stdEnv) toyZlib_lawful exRnd_lengths .oaep256 .g256 false
    (.inl ⟨_, rfl, rfl⟩) hl (by simp) (k := bigKey ⟨(bigP * bigQ : Nat), 65537, none⟩) (k2 := bigKey bigRsa)
    (bigKey_holds _) (bigKey_holds _) bigPublic_construct bigRsa_construct bigRsa_size
    ⟨.inr (.inl rfl), by decide, by decide, by decide⟩ ⟨.inr (.inl rfl), by decide, by decide, by decide⟩
    (by decide)
  exact ⟨o, t, h1, h2, fun rnd2 => h3 rnd2 (by intro h; cases h)⟩

end Verif
