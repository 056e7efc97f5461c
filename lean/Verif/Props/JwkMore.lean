import Verif.Props.Jwk
/-
Properties C29–C33 and C68: public serialization, public copies, thumbprints, equality and hashing,
the key container, symmetric key derivation (`/repo/src/jwkest/jwk.py`).
-/

namespace Verif
open Spec

/-! ### C29: public serialization -/

/-- Two keys with the same public material serialize alike: the private parts have no influence. -/
theorem C29_noninterference (a b : Key) (h : SamePublic a b) :
    a.serialize false = b.serialize false := by
  cases h with
  | rsa ha hb hn he hk hl =>
    simp only [Key.serialize, ha, hb, rsaSerialize, hn, he, hk, Key.common, hl.kty, hl.use, hl.kid,
      hl.alg, Bool.false_eq_true, if_false]
  | ec ha hb hl =>
    simp only [Key.serialize, ha, hb, ecSerialize, Key.common, hl.kty, hl.use, hl.kid,
      hl.alg, Bool.false_eq_true, false_and, if_false]
  | plain ha hb => simp [Key.serialize, ha, hb]

/-- Members of a serialized number. -/
theorem serLong_get? {res d : PyDict} {p : String} {v : PyVal} (h : serLong res p v = .ok d)
    (s : String) (hs : s ≠ p) : PyDict.get? d s = PyDict.get? res s := by
  unfold serLong at h
  split at h
  · cases hv : longToBase64Val v with
    | error e => simp [hv, Except.map] at h
    | ok t =>
      simp only [hv, Except.map, Except.ok.injEq] at h
      rw [← h, PyDict.get?_set, if_neg hs]
  · simp only [Except.ok.injEq] at h
    rw [h]

theorem common_names {k : Key} {s : String} {v : PyVal} (h : PyDict.get? k.common s = some v) :
    s = "kty" ∨ s = "use" ∨ s = "kid" ∨ s = "alg" := by
  rw [get?_common] at h
  by_cases h1 : s = "kty"
  · exact .inl h1
  by_cases h2 : s = "use"
  · exact .inr (.inl h2)
  by_cases h3 : s = "kid"
  · exact .inr (.inr (.inl h3))
  by_cases h4 : s = "alg"
  · exact .inr (.inr (.inr h4))
  simp [h1, h2, h3, h4] at h

/-- The public serialization of an RSA or EC key has no private member. -/
theorem C29_members (k : Key) (hs : classOf k ≠ .sym) (d : PyDict)
    (h : k.serialize false = .ok (.dict d)) (s : String) (v : PyVal)
    (hv : PyDict.get? d s = some v) : s ∈ publicNames := by
  have hcom : (s = "kty" ∨ s = "use" ∨ s = "kid" ∨ s = "alg") → s ∈ publicNames := by
    rintro (rfl | rfl | rfl | rfl) <;> decide
  unfold Key.serialize at h
  split at h
  · simp at h
  · rename_i m hm
    cases hr : rsaSerialize k m false with
    | error e => simp [hr, Except.map] at h
    | ok d' =>
      simp only [hr, Except.map, Except.ok.injEq, PyVal.dict.injEq] at h
      subst h
      unfold rsaSerialize at hr
      split at hr
      · simp at hr
      obtain ⟨d1, h1, hr1⟩ := bind_ok_iff.mp hr
      obtain ⟨d2, h2, hr2⟩ := bind_ok_iff.mp hr1
      simp only [Bool.false_eq_true, if_false, Except.ok.injEq] at hr2
      subst hr2
      by_cases he : s = "e"
      · subst he; decide
      by_cases hn : s = "n"
      · subst hn; decide
      rw [serLong_get? h2 s he, serLong_get? h1 s hn] at hv
      exact hcom (common_names hv)
  · rename_i crv x y pd c hm
    cases hr : ecSerialize k crv x y pd c false with
    | error e => simp [hr, Except.map] at h
    | ok d' =>
      simp only [hr, Except.map, Except.ok.injEq, PyVal.dict.injEq] at h
      subst h
      unfold ecSerialize at hr
      split at hr
      · simp at hr
      obtain ⟨nm, h1, hr1⟩ := bind_ok_iff.mp hr
      obtain ⟨xs, h2, hr2⟩ := bind_ok_iff.mp hr1
      obtain ⟨ys, h3, hr3⟩ := bind_ok_iff.mp hr2
      simp only [Bool.false_eq_true, false_and, if_false, Except.ok.injEq] at hr3
      subst hr3
      simp only [PyDict.get?_set] at hv
      by_cases h4 : s = "y"
      · subst h4; decide
      by_cases h5 : s = "x"
      · subst h5; decide
      by_cases h6 : s = "crv"
      · subst h6; decide
      simp only [h4, h5, h6, if_false] at hv
      exact hcom (common_names hv)
  · rename_i kk hm
    exact absurd (by simp [classOf, hm]) hs

theorem serializeDflt_of_ne {k : Key} (h : classOf k ≠ .sym) : k.serializeDflt = k.serialize false := by
  unfold classOf at h
  unfold Key.serializeDflt
  split at h <;> simp_all

theorem samePublic_class {a b : Key} (h : SamePublic a b) : classOf a ≠ .sym ∧ classOf b ≠ .sym := by
  cases h with
  | rsa ha hb => simp [classOf, ha, hb]
  | ec ha hb => simp [classOf, ha, hb]
  | plain ha hb => simp [classOf, ha, hb]

/-- `dump_jwks()` of two containers whose keys are pairwise equal or of the same public material is the
same text: no private part of an RSA or EC key gets out. -/
theorem C29_dump (ks ks' : Keys) (h : List.Forall₂ (fun a b => SamePublic a b ∨ a = b) ks ks') :
    Keys.dumpJwks ks = Keys.dumpJwks ks' := by
  have : ∀ {l l' : List Key}, List.Forall₂ (fun a b => SamePublic a b ∨ a = b) l l' →
      (l.mapM fun k => do b2sConv (← k.serializeDflt)) =
      (l'.mapM fun k => do b2sConv (← k.serializeDflt) : PyM (List PyVal)) := by
    intro l l' h
    induction h with
    | nil => rfl
    | cons hab _ ih =>
      rw [List.mapM_cons, List.mapM_cons, ih]
      rcases hab with hab | rfl
      · rw [serializeDflt_of_ne (samePublic_class hab).1, serializeDflt_of_ne (samePublic_class hab).2,
          C29_noninterference _ _ hab]
      · rfl
  unfold Keys.dumpJwks
  rw [this h]

/-- A symmetric key's serialization contains the secret whatever is asked for. -/
theorem C29_sym (k : Key) (kk : PyVal) (secret : Bytes) (hm : k.mat = .sym kk)
    (hk : k.key = .val (.bytes secret)) (priv : Bool) :
    ∃ d s, k.serialize priv = .ok (.dict d) ∧ PyDict.get? d "k" = some (.str s) ∧
      IsB64Url secret (utf8Encode s) := by
  obtain ⟨t, ht1⟩ := asciiDecode_of_lt (b := b64e secret)
    (fun c hc => (urlAlphabet_lt c ((C02_rfc4648 secret).1 c hc)).1)
  have e1 := asciiEncode_utf8 (asciiEncode_decode ht1)
  have hu : asUnicode (b64e secret) = .str t := by rw [← e1.1, asUnicode_encode]
  refine ⟨PyDict.set k.common "k" (.str t), t, ?_, ?_, ?_⟩
  · simp only [Key.serialize, hm, symSerialize, hk, pyBytes, Bind.bind, Except.bind, Except.map, hu]
  · rw [PyDict.get?_set, if_pos rfl]
  · rw [e1.1]
    exact C02_rfc4648 secret

/-- Same public half, other private half. -/
def exRsa' : Key :=
  { exRsa with
    key := .rsa ⟨3233, 17, none⟩
    mat := .rsa ⟨.int 3233, .int 17, .str "", .str "", .int 5, .str "", .str "", .str "", .str ""⟩ }

example : exRsa.serialize false = exRsa'.serialize false :=
  C29_noninterference _ _ (.rsa rfl rfl rfl rfl rfl ⟨rfl, rfl, rfl, rfl⟩)

example : exRsa.serialize true ≠ exRsa'.serialize true := by decide +kernel

/-! ### C30: `make_public_copy` -/

/-- The copies of two RSA keys with the same public members are equal. -/
theorem C30_rsa (a b : Key) (m m' : RsaMat) (ha : a.mat = .rsa m) (hb : b.mat = .rsa m')
    (hpub : ∀ s ∈ publicMembers .rsa, attr a s = attr b s) :
    makePublicCopy a = makePublicCopy b := by
  simp only [publicMembers, List.forall_mem_cons, attr, ha, hb, Option.some.injEq] at hpub
  obtain ⟨h1, h2, h3, h4, h5, h6, h7, h8, h9, -⟩ := hpub
  simp only [makePublicCopy, ha, hb, h1, h2, h3, h4, h5, h6, h7, h8, h9]

/-- The same for EC keys. -/
theorem C30_ec (a b : Key) (crv x y d c crv' x' y' d' c') (ha : a.mat = .ec crv x y d c)
    (hb : b.mat = .ec crv' x' y' d' c')
    (hpub : ∀ s ∈ publicMembers .ec, attr a s = attr b s) :
    makePublicCopy a = makePublicCopy b := by
  simp only [publicMembers, List.forall_mem_cons, attr, ha, hb, Option.some.injEq] at hpub
  obtain ⟨h1, h2, h3, h4, h5, h6, h7, -⟩ := hpub
  simp only [makePublicCopy, ha, hb, h1, h2, h3, h4, h5, h6, h7]

/-- The copy has the class and the public members of the key. -/
theorem C30_members (k : Key) :
    classOf (makePublicCopy k) = classOf k ∧
      ∀ s ∈ publicMembers (classOf k), attr (makePublicCopy k) s = attr k s := by
  obtain ⟨kty, alg, use, kid, key, x5c, x5t, x5u, extra, hash, mat⟩ := k
  cases mat <;> simp [makePublicCopy, classOf, publicMembers, attr]

/-- No copy of an RSA or EC key can sign, with any algorithm. -/
theorem C30_cannot_sign (E : Env) (k : Key) (hs : classOf k = .rsa ∨ classOf k = .ec) (a : SigAlg)
    (rnd : Nat) (msg sig : Bytes) :
    ((makePublicCopy k).getKey true).bind (a.sign E rnd msg) ≠ .ok sig := by
  obtain ⟨kty, alg, use, kid, key, x5c, x5t, x5u, extra, hash, mat⟩ := k
  cases mat with
  | plain => simp [classOf] at hs
  | sym kk => simp [classOf] at hs
  | ec crv x y d c => simp [makePublicCopy, Key.getKey, empty_truthy, Except.bind]
  | rsa m =>
    simp only [makePublicCopy, Key.getKey, Except.bind]
    cases a with
    | hs h => simp [SigAlg.sign, hmacKey, Bind.bind, Except.bind]
    | rs h => simp [SigAlg.sign, rsaKeyArg, Bind.bind, Except.bind]
    | ps h => simp [SigAlg.sign, rsaKeyArg, Bind.bind, Except.bind]
    | es h =>
      intro hh
      simp only [SigAlg.sign] at hh
      obtain ⟨C, -, h1⟩ := bind_ok_iff.mp hh
      simp [esPriv, PyVal.asInt?, Bind.bind, Except.bind] at h1

/-- The copies cannot even be serialized: the RSA copy has no library key, the EC copy no curve
object. -/
theorem C30_not_serializable (k : Key) (hs : classOf k = .rsa ∨ classOf k = .ec) (priv : Bool)
    (v : PyVal) : (makePublicCopy k).serialize priv ≠ .ok v := by
  obtain ⟨kty, alg, use, kid, key, x5c, x5t, x5u, extra, hash, mat⟩ := k
  cases mat with
  | plain => simp [classOf] at hs
  | sym kk => simp [classOf] at hs
  | ec crv x y d c =>
    simp only [makePublicCopy, Key.serialize, ecSerialize]
    split
    · simp [Except.map]
    · simp [Except.map, Bind.bind, Except.bind]
  | rsa m => simp [makePublicCopy, Key.serialize, rsaSerialize, KObj.truthy, PyVal.truthy, Except.map]

/-- The "public" copy of a symmetric key that was loaded from its encoded form gives the secret
away: every derived encryption key is that of the original. -/
theorem C30_sym_secret (E : Env) (k : Key) (t secret : Bytes) (hm : k.mat = .sym (.bytes t))
    (ht : b64d t = .ok secret) (hne : secret ≠ []) (hk : k.key = .val (.bytes secret)) (alg : PyVal)
    (priv : Bool) :
    (makePublicCopy k).encryptionKey E alg priv = k.encryptionKey E alg priv := by
  have htn : (PyVal.bytes t).truthy = true := by
    cases t with
    | nil =>
      rw [b64d_nil] at ht
      exact absurd (by simpa using ht.symm) hne
    | cons _ _ => rfl
  have hsn : (KObj.val (.bytes secret)).truthy = true := by
    cases secret with
    | nil => exact absurd rfl hne
    | cons _ _ => rfl
  have hnone : (KObj.val PyVal.none).truthy = false := rfl
  simp only [makePublicCopy, hm, Key.encryptionKey, symEncryptionKey, hnone, Bool.false_eq_true,
    if_false, symDeserialize, htn, if_true, pyBytes, ht, Bind.bind, Except.bind, hk, hsn]

example : (makePublicCopy { exSym with mat := .sym (.bytes (b64e [1, 2, 3])) }).encryptionKey toyEnv
    (.str "HS256") false =
    ({ exSym with mat := .sym (.bytes (b64e [1, 2, 3])) } : Key).encryptionKey toyEnv (.str "HS256")
      false :=
  C30_sym_secret toyEnv _ _ [1, 2, 3] rfl (C01_roundtrip _) (by decide) rfl _ _

example (sig : Bytes) : ((makePublicCopy exRsa).getKey true).bind
    ((SigAlg.rs .sha256).sign toyEnv 0 [1]) ≠ .ok sig :=
  C30_cannot_sign toyEnv exRsa (.inl rfl) _ _ _ _

/-- (The original can.) -/
example : (exRsa.getKey true).bind ((SigAlg.rs .sha256).sign toyEnv 0 [1]) = .ok [1, 1] := by
  decide +kernel

/-! ### C68: symmetric encryption keys -/

theorem alg2keylen_iff (s : String) (n : Nat) :
    alg2keylen (.str s) = some n ↔ ∃ h, KeyLen s n h := by
  constructor
  · intro h
    unfold alg2keylen at h
    simp only [PyVal.str.injEq] at h
    split at h
    · cases h; subst s; exact ⟨_, .a128⟩
    split at h
    · cases h; subst s; exact ⟨_, .a192⟩
    split at h
    · cases h; subst s; exact ⟨_, .a256⟩
    split at h
    · cases h; subst s; exact ⟨_, .hs256⟩
    split at h
    · cases h; subst s; exact ⟨_, .hs384⟩
    split at h
    · cases h; subst s; exact ⟨_, .hs512⟩
    · simp at h
  · rintro ⟨h, hh⟩
    cases hh <;> decide

/-- A symmetric key with a non-empty secret: for the six names of the table the result is the
leading part of the named digest of the secret, of exactly the named length; any other value of
`alg` raises `KeyError`. -/
theorem C68_derivation (E : Env) (k : Key) (kk : PyVal) (secret : Bytes) (hm : k.mat = .sym kk)
    (hk : k.key = .val (.bytes secret)) (hne : secret ≠ []) (priv : Bool) :
    (∀ name n h, KeyLen name n h →
      k.encryptionKey E (.str name) priv =
        .ok (.obj (.val (.bytes ((E.H.hash h secret).take n))))) ∧
    (∀ alg, (¬ ∃ name n h, KeyLen name n h ∧ alg = .str name) →
      k.encryptionKey E alg priv = .error .keyError) := by
  have hsn : (KObj.val (.bytes secret)).truthy = true := by
    cases secret with
    | nil => exact absurd rfl hne
    | cons _ _ => rfl
  constructor
  · intro name n h hh
    have := (alg2keylen_iff name n).mpr ⟨h, hh⟩
    simp only [Key.encryptionKey, hm, symEncryptionKey, hk, hsn, if_true, Bind.bind, Except.bind,
      this, keyBytes]
    cases hh <;> simp [Except.map]
  · intro alg hn
    have : alg2keylen alg = none := by
      cases alg with
      | str s =>
        cases h : alg2keylen (.str s) with
        | none => rfl
        | some n =>
          obtain ⟨h, hh⟩ := (alg2keylen_iff s n).mp h
          exact absurd ⟨s, n, h, hh, rfl⟩ hn
      | _ => simp [alg2keylen]
    simp [Key.encryptionKey, hm, symEncryptionKey, hk, hsn, Bind.bind, Except.bind, this, Except.map]

/-- A secret assigned as text counts as its UTF-8 octets. -/
theorem C68_text (E : Env) (k : Key) (kk : PyVal) (text : String) (hm : k.mat = .sym kk)
    (hk : k.key = .val (.str text)) (hne : text ≠ "") (priv : Bool) {name : String} {n : Nat} {h : HashAlg}
    (hn : KeyLen name n h) :
    k.encryptionKey E (.str name) priv = .ok (.obj (.val (.bytes ((E.H.hash h (utf8Encode text)).take n)))) := by
  have hsn : (KObj.val (.str text)).truthy = true := by simp [KObj.truthy, PyVal.truthy, hne]
  have := (alg2keylen_iff name n).mpr ⟨h, hn⟩
  simp only [Key.encryptionKey, hm, symEncryptionKey, hk, hsn, if_true, Bind.bind, Except.bind, this, keyBytes]
  cases hn <;> simp [Except.map]

example : ({ exSym with key := .val (.str "abc") } : Key).encryptionKey toyEnv (.str "HS384") false =
    .ok (.obj (.val (.bytes ((toyHashes.hash .sha384 [97, 98, 99]).take 48)))) :=
  C68_text toyEnv _ _ "abc" rfl rfl (by decide) false .hs384

/-- What is neither text nor octets cannot be a secret. -/
theorem C68_other (E : Env) (k : Key) (kk v : PyVal) (hm : k.mat = .sym kk) (hk : k.key = .val v)
    (ht : v.truthy = true) (hb : ∀ b, v ≠ .bytes b) (hs : ∀ s, v ≠ .str s) (priv : Bool) {name : String} {n : Nat}
    {h : HashAlg} (hn : KeyLen name n h) : k.encryptionKey E (.str name) priv = .error .typeError := by
  have hsn : (KObj.val v).truthy = true := ht
  have := (alg2keylen_iff name n).mpr ⟨h, hn⟩
  simp only [Key.encryptionKey, hm, symEncryptionKey, hk, hsn, if_true, Bind.bind, Except.bind, this]
  cases v <;> first | rfl | exact absurd rfl (hb _) | exact absurd rfl (hs _)

example : ({ exSym with key := .val (.int 5) } : Key).encryptionKey toyEnv (.str "A128KW") false = .error .typeError :=
  C68_other toyEnv _ _ (.int 5) rfl rfl rfl (by simp) (by simp) false .a128

/-- With real digests the result has the named length. -/
theorem C68_length (H : Hashes) (hH : H.Lawful) (name : String) (n : Nat) (h : HashAlg)
    (hh : KeyLen name n h) (secret : Bytes) : ((H.hash h secret).take n).length = n := by
  rw [List.length_take, hH.hash_length]
  cases hh <;> decide

/-- Without secret and without encoded secret nothing can be derived, whatever `alg` is. -/
theorem C68_missing (E : Env) (k : Key) (kk : PyVal) (hm : k.mat = .sym kk)
    (hk : k.key.truthy = false) (hkk : kk.truthy = false) (alg : PyVal) (priv : Bool) :
    k.encryptionKey E alg priv = .error .deSerializationNotPossible := by
  simp [Key.encryptionKey, hm, symEncryptionKey, hk, symDeserialize, hkk, Bind.bind, Except.bind,
    Except.map]

example : exSym.encryptionKey toyEnv (.str "A128KW") false =
    .ok (.obj (.val (.bytes ((toyHashes.hash .sha256 [1, 2, 3]).take 16)))) :=
  (C68_derivation toyEnv exSym _ _ rfl rfl (by decide) false).1 _ _ _ .a128

end Verif
