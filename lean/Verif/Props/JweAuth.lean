import Verif.Props.JweForgery
import Verif.Props.JweEc
import Verif.Props.GcmForgery
/-
C60: what an accepted JWE token satisfies.  C61: which algorithms are accepted.
-/

namespace Verif
open Spec

namespace Spec

/-- The tag belongs to the header segment `aad` as sent, the iv and the ciphertext, under the content
key.  GCM: RFC 7518 section 5.3 (the library reads key, iv and tag as numbers, so the AES key `K` is
the one of 16 or 32 bytes with the value of the content key).  CBC: section 5.2.2.2. -/
def Authentic (E : Env) (enc : String) (ckey aad iv ct tag : Bytes) : Prop :=
  ((enc = "A128GCM" ∨ enc = "A192GCM" ∨ enc = "A256GCM") ∧ bytesToNat iv < 2 ^ 96 ∧
    ct.length ≤ 16 * 2 ^ 32 ∧ ∃ K : Bytes, bytesToNat K = bytesToNat ckey ∧
      K.length = (if bytesToNat ckey < 2 ^ 128 then 16 else 32) ∧
      IsGcmTag (E.C.enc K) (natToBytesW 12 (bytesToNat iv)) aad ct (bytesToNat tag)) ∨
  ((enc = "A128CBC-HS256" ∨ enc = "A192CBC-HS384" ∨ enc = "A256CBC-HS512") ∧
    iv.length = 16 ∧ aad.length < 2 ^ 61 ∧ ∃ s a, (ckey.length, s, a) ∈ cbcHmacParams ∧
      tag = (E.H.hmac a (ckey.take s) (macInput aad iv ct)).take s)

/-- The dot-separated segments of a token, the first five decoded, the header parsed. -/
structure ReadAs (t : Bytes) (h : PyDict) (s0 ek iv ct tag : Bytes) (extra : List Bytes) : Prop where
  parts : ∃ s1 s2 s3 s4, Segments t (s0 :: s1 :: s2 :: s3 :: s4 :: extra) ∧ b64d s1 = .ok ek ∧
    b64d s2 = .ok iv ∧ b64d s3 = .ok ct ∧ b64d s4 = .ok tag
  header : ∃ p hs, b64d s0 = .ok p ∧ utf8Decode p = .ok hs ∧ jsonLoads hs = .ok (.dict h)

/-- The token a call works on: the argument, or else the one the object was made from. -/
def Received (o : Jwe) (token t : Bytes) : Prop :=
  (token ≠ [] ∧ t = token) ∨ (token = [] ∧ ∃ j, o.jwt = some j ∧ Jwt.unpack t = .ok j)

/-- RSA decryption of the encrypted key. -/
def RsaOpens (R : RsaLib) (alg : String) (r : RsaKey) (ek c : Bytes) : Prop :=
  (alg = "RSA1_5" ∧ R.dec15 r ek = .ok (some c)) ∨ (alg = "RSA-OAEP" ∧ R.decOaep .sha1 r ek = .ok c) ∨
  (alg = "RSA-OAEP-256" ∧ R.decOaep .sha256 r ek = .ok c)

/-- `ECKey(**e)`, which leaves no choice since the arguments `key` and `curve` come from `e` too. -/
def EcKeyOf (e : PyDict) (k : Key) : Prop :=
  ecKeyNew e (.val ((PyDict.get? e "key").getD .none)) (.val ((PyDict.get? e "curve").getD .none)) 0 = .ok k

/-- The Diffie-Hellman value of the private number of `k` and the point of `epk`, on the curve of
`epk`, passed through the KDF with the name `name` and the length `n` in bits. -/
def Agrees (E : Env) (h : PyDict) (k : Key) (name : String) (n : Nat) (c : Bytes) : Prop :=
  ∃ (C : NistCurve) (d : Int) (x y : PyVal) (P : EPt) (z apu apv : Bytes),
    (∃ e ek crv ed, PyDict.get? h "epk" = some (.dict e) ∧ EcKeyOf e ek ∧
      ek.mat = .ec crv x y ed (.curve C)) ∧
    (∃ crv kx ky dv kc, k.mat = .ec crv kx ky dv kc ∧ dv.asInt? = some d ∧ 0 ≤ d) ∧
    (∃ i j, x.asInt? = some i ∧ y.asInt? = some j ∧ P = some (i, j)) ∧ C.dhZ d.toNat P = .ok z ∧
    (∃ s, PyDict.get? h "apu" = some (.str s) ∧ b64d (utf8Encode s) = .ok apu) ∧
    (∃ s, PyDict.get? h "apv" = some (.str s) ∧ b64d (utf8Encode s) = .ok apv) ∧
    ecdhDeriveFromZ E.H z apu apv (utf8Encode name) n = .ok c

/-- Where the content key comes from: the caller, or the encrypted key opened by one of the keys, or
(direct agreement) the header and one of the keys. -/
inductive KeyFrom (E : Env) (cand : Key → Prop) (h : PyDict) (alg enc : String) (cek ek : Bytes) :
    Bytes → Prop
  | given : cek ≠ [] → (alg = "RSA1_5" ∨ alg = "RSA-OAEP" ∨ alg = "RSA-OAEP-256" ∨
      ∃ x, alg.toList = 'A' :: x ∧ ['K', 'W'] <:+ alg.toList) → KeyFrom E cand h alg enc cek ek cek
  | wrapped {k kek c} : cand k → (∃ x, alg.toList = 'A' :: x ∧ ['K', 'W'] <:+ alg.toList) →
      k.encryptionKey E (.str alg) false = .ok (.obj (.val (.bytes kek))) →
      aesUnwrapKey E.C kek ek = .ok c → KeyFrom E cand h alg enc cek ek c
  | rsa {k r c} : cand k → k.encryptionKey E (.str alg) false = .ok (.obj (.rsa r)) →
      RsaOpens E.R alg r ek c → KeyFrom E cand h alg enc cek ek c
  | direct {k n i c} : cand k → alg = "ECDH-ES" → EncName enc n i → Agrees E h k enc (8 * n) c →
      KeyFrom E cand h alg enc cek ek c
  | agreeWrap {k n w kek c} : cand k → alg = "ECDH-ES+" ++ w → MgmtName w (.wrap n) →
      Agrees E h k w (8 * n) kek → aesUnwrapKey E.C kek ek = .ok c → KeyFrom E cand h alg enc cek ek c

end Spec

/-! ### Inversion of the content decryption -/

theorem gcm_decrypt_short {C : BlockCipher} {g : Gcm} {iv tag : Nat} {ct aad m : Bytes}
    (h : g.decrypt C iv ct tag aad = .ok m) : ct.length ≤ 16 * 2 ^ 32 := by
  have hge : ct.length ≤ (pad16 ct).length := by
    obtain ⟨k, h, _⟩ := pad16_prefix ct
    rw [h]; simp
  unfold Gcm.decrypt at h
  split at h
  · cases h
  split at h
  · cases h
  split at h
  · cases h
  unfold Gcm.crypt at h
  split at h
  · simp only [Bind.bind] at h
    obtain ⟨r, hr, -⟩ := bind_ok_iff.mp h
    unfold ctrCrypt at hr
    simp only [Bind.bind] at hr
    obtain ⟨u, -, hr1⟩ := bind_ok_iff.mp hr
    split at hr1
    · cases hr1
    · omega
  · omega

theorem gcm_decrypt_tag {C : BlockCipher} (hC : C.Lawful) {key : Bytes} {g : Gcm}
    (hg : g.Reachable C key) {iv tag : Nat} {ct aad m : Bytes} (h : g.decrypt C iv ct tag aad = .ok m) :
    iv < 2 ^ 96 ∧ IsGcmTag (C.enc key) (natToBytesW 12 iv) aad ct tag := by
  obtain ⟨-, h2, h3⟩ := C45_decrypt hC hg iv ct tag aad (gcm_decrypt_short h)
  by_cases hiv : iv < 2 ^ 96
  · refine ⟨hiv, ?_⟩
    by_contra hc
    by_cases ht : tag < 2 ^ 128
    · rw [h2 hiv ht hc] at h; cases h
    · rw [h3 (.inr (by omega))] at h; cases h
  · rw [h3 (.inl (by omega))] at h; cases h

theorem jweDecrypt_authentic {E : Env} (hC : E.C.Lawful) {enc : PyVal} {ckey ct aad iv tag m : Bytes}
    (h : jweDecrypt E enc ckey ct aad iv tag = .ok m) :
    ∃ s, enc = .str s ∧ Authentic E s ckey aad iv ct tag := by
  unfold jweDecrypt at h
  split at h
  · rename_i hg
    obtain ⟨s, rfl, hs⟩ := strIn_str hg
    refine ⟨s, rfl, .inl ⟨by simp at hs; tauto, ?_⟩⟩
    simp only [Bind.bind] at h
    obtain ⟨g, hgn, hd⟩ := bind_ok_iff.mp h
    obtain ⟨hr, -⟩ := gcm_new_reachable hgn
    obtain ⟨hiv, ht⟩ := gcm_decrypt_tag hC hr hd
    obtain ⟨k1, k2, k3⟩ := C47_used_key hC ckey g hgn
    have hk := (hr.valid hC).2
    rw [hk] at k1 k2 k3
    refine ⟨hiv, gcm_decrypt_short hd, _, k3, ?_, ht⟩
    split
    · exact k1 (by assumption)
    · exact k2 (by omega)
  · split at h
    · rename_i hg
      obtain ⟨s, rfl, hs⟩ := strIn_str hg
      refine ⟨s, rfl, .inr ⟨by simp at hs; tauto, ?_⟩⟩
      obtain ⟨s', a, h1, h2, h3, h4⟩ := C40_tag _ _ _ _ _ _ _ _ h
      exact ⟨h2, h3, s', a, h1, h4⟩
    · cases h

theorem map_ok {α β : Type} {x : PyM α} {f : α → β} {b : β} (h : x.map f = .ok b) :
    ∃ a, x = .ok a ∧ f a = b := by
  rcases x with e | a
  · cases h
  · cases h; exact ⟨a, rfl, rfl⟩

/-! ### Inversion of the way through `decrypt` -/

theorem getItem_ok {v w : PyVal} {n : String} (h : v.getItem n = .ok w) :
    ∃ d, v = .dict d ∧ PyDict.get? d n = some w := by
  unfold PyVal.getItem at h
  split at h
  · rename_i d
    split at h
    · rename_i x hx
      cases h
      exact ⟨d, rfl, hx⟩
    · cases h
  · cases h

theorem partAt_ok {j : Jwt} {i : Nat} {p : Bytes} (h : j.partAt i = .ok p) : j.part[i]? = some p := by
  unfold Jwt.partAt at h
  split at h
  · rename_i q hq; cases h; exact hq
  · cases h

/-- What the content decryption of an unpacked token used. -/
def Used (E : Env) (j : Jwt) (ckey m : Bytes) : Prop :=
  ∃ enc s0 iv ct tag, j.headers.getItem "enc" = .ok enc ∧ j.b64ProtectedHeader = .ok s0 ∧
    j.partAt 2 = .ok iv ∧ j.partAt 3 = .ok ct ∧ j.partAt 4 = .ok tag ∧
    jweDecrypt E enc ckey ct s0 iv tag = .ok m

theorem symDecrypt_inv {E : Env} {j : Jwt} {key : Option KeyArg} {cek m : Bytes}
    (h : symDecrypt E j key cek = .ok m) :
    ∃ ckey, Used E j ckey m ∧ j.part.length = 5 ∧ ((cek ≠ [] ∧ ckey = cek) ∨
      ∃ jek kek, cek = [] ∧ j.partAt 1 = .ok jek ∧ key = some (.obj (.val (.bytes kek))) ∧
        aesUnwrapKey E.C kek jek = .ok ckey) := by
  unfold symDecrypt at h
  simp only [Bind.bind] at h
  obtain ⟨ckey, hck, h1⟩ := bind_ok_iff.mp h
  obtain ⟨enc, henc, h2⟩ := bind_ok_iff.mp h1
  obtain ⟨ct, hct, h3⟩ := bind_ok_iff.mp h2
  obtain ⟨s0, hs0, h4⟩ := bind_ok_iff.mp h3
  obtain ⟨iv, hiv, h5⟩ := bind_ok_iff.mp h4
  obtain ⟨tag, htag, h6⟩ := bind_ok_iff.mp h5
  have hu : Used E j ckey m := ⟨enc, s0, iv, ct, tag, henc, hs0, hiv, hct, htag, h6⟩
  split at hck
  · cases hck
  split at hck
  · cases hck
  rename_i hlen
  have hlen : j.part.length = 5 := by omega
  split at hck
  · rename_i hc
    cases hck
    exact ⟨_, hu, hlen, .inl ⟨hc, rfl⟩⟩
  · rename_i hc
    obtain ⟨jek, hj, hck1⟩ := bind_ok_iff.mp hck
    obtain ⟨kek, hk, hck2⟩ := bind_ok_iff.mp hck1
    refine ⟨ckey, hu, hlen, .inr ⟨jek, kek, by simpa using hc, hj, ?_, hck2⟩⟩
    unfold symKek at hk
    split at hk
    · rename_i b hb
      cases hk
      rcases key with _ | key
      · simp at hb
      · simp only [Option.getD_some] at hb
        rw [hb]
    · cases hk

/-- The message of a token whose content decrypts to `pt`: decompressed if the header says so. -/
def Spec.Unzipped (E : Env) (h : PyDict) (pt m : Bytes) : Prop :=
  (PyDict.get? h "zip" ≠ some (.str "DEF") ∧ m = pt) ∨
  (PyDict.get? h "zip" = some (.str "DEF") ∧ E.Z.decompress pt = .ok m)

/-- The message of a token with the algorithm `a`: only RSA tokens are decompressed. -/
def Spec.Delivered (E : Env) (h : PyDict) (a : String) (pt m : Bytes) : Prop :=
  ((a = "RSA1_5" ∨ a = "RSA-OAEP" ∨ a = "RSA-OAEP-256") ∧ Unzipped E h pt m) ∨
  (¬ (a = "RSA1_5" ∨ a = "RSA-OAEP" ∨ a = "RSA-OAEP-256") ∧ m = pt)

theorem rsaPadOf_ok {alg : PyVal} {p : RsaPad} (h : rsaPadOf alg = .ok p) :
    (alg = .str "RSA-OAEP" ∧ p = .oaep) ∨ (alg = .str "RSA-OAEP-256" ∧ p = .oaep256) ∨
      (alg = .str "RSA1_5" ∧ p = .pkcs1) := by
  unfold rsaPadOf at h
  split at h
  · cases h; exact .inl ⟨by assumption, rfl⟩
  split at h
  · cases h; exact .inr (.inl ⟨by assumption, rfl⟩)
  split at h
  · cases h; exact .inr (.inr ⟨by assumption, rfl⟩)
  · cases h

theorem rsaDecrypt_inv {E : Env} {sent : Bytes} {j : Jwt} {key : Option KeyArg} {cek m c : Bytes}
    (h : rsaDecrypt E false sent j key cek = .ok (m, c)) :
    ∃ ckey pt, Used E j ckey pt ∧ c = ckey ∧ (∀ hd, j.headers = .dict hd → Unzipped E hd pt m) ∧ (∃ jek, j.partAt 1 = .ok jek ∧ ((cek ≠ [] ∧ ckey = cek) ∨
      ∃ r alg, cek = [] ∧ key = some (.obj (.rsa r)) ∧ j.headers.getItem "alg" = .ok (.str alg) ∧
        RsaOpens E.R alg r jek ckey ∧ (alg = "RSA1_5" → ckey ≠ sent))) := by
  unfold rsaDecrypt at h
  simp only [Bind.bind] at h
  obtain ⟨jek, hjek, h1⟩ := bind_ok_iff.mp h
  obtain ⟨alg, halg, h2⟩ := bind_ok_iff.mp h1
  obtain ⟨ckey, hck, h3⟩ := bind_ok_iff.mp h2
  obtain ⟨enc, henc, h4⟩ := bind_ok_iff.mp h3
  split at h4
  · cases h4
  obtain ⟨ct, hct, h5⟩ := bind_ok_iff.mp h4
  obtain ⟨s0, hs0, h6⟩ := bind_ok_iff.mp h5
  obtain ⟨iv, hiv, h7⟩ := bind_ok_iff.mp h6
  obtain ⟨tag, htag, h8⟩ := bind_ok_iff.mp h7
  obtain ⟨msg, hmsg, h9⟩ := bind_ok_iff.mp h8
  obtain ⟨b, hb, h9'⟩ := bind_ok_iff.mp h9
  obtain ⟨z, hz, h10⟩ := bind_ok_iff.mp h9'
  obtain ⟨msg', hmsg', h11⟩ := bind_ok_iff.mp h10
  cases h11
  have hun : ∀ hd, j.headers = .dict hd → Unzipped E hd msg m := by
    intro hd hhd
    rw [hhd] at hz hb
    simp only [PyVal.contains, PyDict.has, PyVal.getItem, Except.bind] at hz hb
    rcases hg : PyDict.get? hd "zip" with _ | v
    · rw [hg] at hz hb
      cases hb
      cases hz
      cases hmsg'
      exact .inl ⟨by rw [hg]; simp, rfl⟩
    · rw [hg] at hz hb
      cases hb
      simp only [Option.isSome_some, if_true] at hz
      cases hz
      by_cases hv : v = .str "DEF"
      · subst hv
        exact .inr ⟨hg, by simpa using hmsg'⟩
      · have : (v == .str "DEF") = false := by simpa using hv
        rw [this] at hmsg'
        cases hmsg'
        exact .inl ⟨by rw [hg]; simpa using hv, rfl⟩
  refine ⟨c, msg, ⟨enc, s0, iv, ct, tag, henc, hs0, hiv, hct, htag, hmsg⟩, rfl, hun, jek, hjek, ?_⟩
  split at hck
  · rename_i hc
    cases hck
    exact .inl ⟨hc, rfl⟩
  · rename_i hc
    right
    obtain ⟨pad, hpad, hck1⟩ := bind_ok_iff.mp hck
    unfold rsaEncrypterDecrypt at hck1
    simp only [Bind.bind] at hck1
    obtain ⟨r, hr, hck2⟩ := bind_ok_iff.mp hck1
    have hkey : key = some (.obj (.rsa r)) := by
      rcases key with _ | key
      · simp only [Option.getD_none, rsaKeyArg] at hr; cases hr
      · simp only [Option.getD_some] at hr
        unfold rsaKeyArg at hr
        split at hr
        · cases hr; rfl
        · cases hr
    rcases rsaPadOf_ok hpad with ⟨rfl, rfl⟩ | ⟨rfl, rfl⟩ | ⟨rfl, rfl⟩
    · exact ⟨r, _, by simpa using hc, hkey, halg, .inr (.inl ⟨rfl, hck2⟩), fun h => absurd h (by decide)⟩
    · exact ⟨r, _, by simpa using hc, hkey, halg, .inr (.inr ⟨rfl, hck2⟩), fun h => absurd h (by decide)⟩
    · simp only at hck2
      obtain ⟨txt, htxt, hck3⟩ := bind_ok_iff.mp hck2
      unfold rsaCheckText at hck3
      simp only [Bool.false_eq_true, if_false] at hck3
      split at hck3
      · cases hck3
      · rename_i hne
        cases hck3
        rcases txt with _ | txt
        · simp at hne
        · exact ⟨r, _, by simpa using hc, hkey, halg, .inl ⟨rfl, htxt⟩, fun _ => hne⟩

theorem ecDecrypt_inv {E : Env} {j : Jwt} {s : Bytes × Bytes × Bytes × Bytes} {m : Bytes}
    (h : ecDecrypt E j s = .ok m) : ∃ enc s0, j.headers.getItem "enc" = .ok enc ∧
      j.b64ProtectedHeader = .ok s0 ∧ s.1 ≠ [] ∧ jweDecrypt E enc s.1 s.2.2.1 s0 s.2.1 s.2.2.2 = .ok m := by
  obtain ⟨c, iv, ct, tag⟩ := s
  unfold ecDecrypt at h
  simp only [Bind.bind] at h
  split at h
  · cases h
  rename_i hc
  obtain ⟨enc, henc, h1⟩ := bind_ok_iff.mp h
  obtain ⟨s0, hs0, h2⟩ := bind_ok_iff.mp h1
  exact ⟨enc, s0, henc, hs0, hc, h2⟩

/-- A successful loop ends with one successful attempt. -/
theorem decryptLoop_inv {E : Env} {kind : JweKind} {rnd : JweRnd} {j : Jwt}
    {s : Bytes × Bytes × Bytes × Bytes} {alg : PyVal} {r : Bytes × PyVal} : ∀ {ks : List Key} {i : Nat},
    decryptLoop E kind rnd j s alg i ks = .ok r →
    ∃ k ∈ ks, ∃ ka n, k.encryptionKey E alg false = .ok ka ∧
      decryptBy E kind (rnd.sentinel n) j s (some ka) [] = .ok r
  | [], _, h => by simp [decryptLoop] at h
  | k :: l, i, h => by
    unfold decryptLoop at h
    split at h
    · cases h
    rename_i ka hka
    split at h
    · rename_i r' hr
      cases h
      exact ⟨k, by simp, ka, i, hka, hr⟩
    · split at h
      · obtain ⟨k', hk', ka', n, h1, h2⟩ := decryptLoop_inv h
        exact ⟨k', by simp [hk'], ka', n, h1, h2⟩
      · cases h

theorem decryptTry_inv {E : Env} {kind : JweKind} {rnd : JweRnd} {j : Jwt}
    {s : Bytes × Bytes × Bytes × Bytes} {alg : PyVal} {r : Bytes × PyVal} {ks : List Key} {cek : Bytes}
    (h : decryptTry E kind rnd j s alg ks cek = .ok r) :
    (cek ≠ [] ∧ decryptBy E kind (rnd.sentinel 0) j s none cek = .ok r) ∨
    ∃ k ∈ ks, ∃ ka n, k.encryptionKey E alg false = .ok ka ∧
      decryptBy E kind (rnd.sentinel n) j s (some ka) [] = .ok r := by
  unfold decryptTry at h
  split at h
  · exact .inr (decryptLoop_inv h)
  · rename_i hc
    split at h
    · rename_i r' hr
      cases h
      exact .inl ⟨hc, hr⟩
    · split at h
      · exact .inr (decryptLoop_inv h)
      · cases h

/-- The keys that can be picked: the caller's, or without any the one of the object. -/
def Candidate (o : Jwe) (keys : List Key) (k : Key) : Prop :=
  k ∈ keys ∨ (keys = [] ∧ o.jwk = some (.key k))

theorem pickKeys_candidate {E : Env} {o : Jwe} {keys : List Key} {src : List JKey} {ks : List Key} {av : PyVal}
    (hs : o.keySource E keys = .ok src) (h : o.pickKeys jweAlg2keytype src "enc" av = .ok ks) :
    ∀ k ∈ ks, Candidate o keys k := by
  unfold Jwx.pickKeys at h
  simp only [Bind.bind] at h
  obtain ⟨a, -, h1⟩ := bind_ok_iff.mp h
  split at h1
  · cases h1; simp
  obtain ⟨kt, -, h2⟩ := bind_ok_iff.mp h1
  split at h2
  · cases h2; simp
  obtain ⟨ks', hks', h3⟩ := bind_ok_iff.mp h2
  obtain ⟨kid, -, h4⟩ := bind_ok_iff.mp h3
  cases h4
  obtain ⟨l, rfl⟩ := keysOfType_ok hks'
  have hsub : ∀ (l : List Key) (ks' : List Key) (kt : String), keysOfType kt (l.map JKey.key) = .ok ks' →
      ∀ k ∈ ks', k ∈ l := by
    intro l
    induction l with
    | nil => intro ks' kt h; simp only [List.map_nil, keysOfType] at h; cases h; simp
    | cons x l ih =>
      intro ks' kt h k hk
      simp only [List.map_cons, keysOfType, Bind.bind] at h
      obtain ⟨r, hr, hr1⟩ := bind_ok_iff.mp h
      cases hr1
      split at hk
      · rcases List.mem_cons.mp hk with rfl | hk
        · simp
        · exact List.mem_cons_of_mem _ (ih r kt hr k hk)
      · exact List.mem_cons_of_mem _ (ih r kt hr k hk)
  intro k hk
  have hk := hsub l ks' _ hks' k (List.mem_filter.mp hk).1
  rcases keySource_cases hs rfl with he | rfl
  · rcases he with ⟨-, rfl⟩ | ⟨h0, k', hj, rfl⟩
    · exact .inl hk
    · simp only [List.mem_singleton] at hk
      subst hk
      exact .inr ⟨h0, hj⟩
  · simp at hk

theorem headerParty_some {h : PyDict} {n : String} {b : Bytes}
    (hp : headerParty (.dict h) n = .ok (some b)) :
    ∃ s, PyDict.get? h n = some (.str s) ∧ b64d (utf8Encode s) = .ok b := by
  unfold headerParty at hp
  simp only [Bind.bind] at hp
  obtain ⟨c, -, hp1⟩ := bind_ok_iff.mp hp
  split at hp1
  · obtain ⟨v, hv, hp2⟩ := bind_ok_iff.mp hp1
    obtain ⟨d, hd, hv'⟩ := getItem_ok hv
    cases hd
    split at hp2
    · rename_i s
      refine ⟨s, hv', ?_⟩
      rcases hb : b64d (utf8Encode s) with e | b'
      · rw [hb] at hp2; cases hp2
      · rw [hb] at hp2; cases hp2; rfl
    · cases hp2
  · cases hp1

theorem esPub_point {x y : PyVal} {P : EPt} :
    esPub (.point x y) = .ok P ↔ ∃ i j, x.asInt? = some i ∧ y.asInt? = some j ∧ P = some (i, j) := by
  cases hx : x.asInt? <;> cases hy : y.asInt? <;> simp [esPub, hx, hy, eq_comm]

theorem ecdhDerive_inv {E : Env} {curve : KObj} {d x y : PyVal} {apu apv : Option Bytes} {alg c : Bytes}
    {n : Nat} (h : ecdhDerive E curve d x y apu apv alg n = .ok c) :
    ∃ C i P z u v, curve = .curve C ∧ d.asInt? = some i ∧ 0 ≤ i ∧ esPub (.point x y) = .ok P ∧
      C.dhZ i.toNat P = .ok z ∧ apu = some u ∧ apv = some v ∧ ecdhDeriveFromZ E.H z u v alg n = .ok c := by
  unfold ecdhDerive at h
  split at h
  · rename_i C
    simp only [Bind.bind] at h
    obtain ⟨dn, hd, h1⟩ := bind_ok_iff.mp h
    obtain ⟨P, hP, h2⟩ := bind_ok_iff.mp h1
    obtain ⟨z, hz, h3⟩ := bind_ok_iff.mp h2
    split at h3
    · rename_i u v
      unfold dhScalar at hd
      split at hd
      · rename_i i hi
        split at hd
        · cases hd
        · cases hd
          exact ⟨C, i, P, z, u, v, rfl, hi, by omega, hP, hz, rfl, rfl, h3⟩
      · cases hd
    · cases h3
  · cases h

theorem headerEpk_ok {h : PyDict} {e : PyVal} (he : headerEpk (.dict h) = .ok e) :
    PyDict.get? h "epk" = some e := by
  unfold headerEpk at he
  simp only [Bind.bind] at he
  obtain ⟨c, -, he1⟩ := bind_ok_iff.mp he
  split at he1
  · obtain ⟨v, hv, he2⟩ := bind_ok_iff.mp he1
    obtain ⟨d, hd, hv'⟩ := getItem_ok hv
    cases hd
    obtain ⟨c', -, he3⟩ := bind_ok_iff.mp he2
    split at he3
    · cases he3; exact hv'
    · cases he3
  · cases he1

theorem ecAttrs_ok {k : Key} {a : PyVal × PyVal × PyVal × PyVal × KObj} (h : ecAttrs k = .ok a) :
    k.mat = .ec a.1 a.2.1 a.2.2.1 a.2.2.2.1 a.2.2.2.2 := by
  unfold ecAttrs at h
  split at h
  · rename_i hm; cases h; exact hm
  · cases h

theorem keylen_inv {enc : PyVal} {r : Nat × Bytes} (h : keylen enc = .ok r) :
    ∃ s n i, enc = .str s ∧ EncName s n i ∧ r = (8 * n, utf8Encode s) := by
  unfold keylen at h
  split at h
  · rename_i s
    split at h
    · rename_i n hn
      cases h
      have hmem : (s, n) ∈ keylenTable := by
        rw [List.lookup_eq_some_iff] at hn
        obtain ⟨l1, l2, hl, -⟩ := hn
        rw [hl]; simp
      simp only [keylenTable, List.mem_cons, Prod.mk.injEq, List.not_mem_nil, or_false] at hmem
      rcases hmem with ⟨rfl, rfl⟩ | ⟨rfl, rfl⟩ | ⟨rfl, rfl⟩ | ⟨rfl, rfl⟩ | ⟨rfl, rfl⟩ | ⟨rfl, rfl⟩
      · exact ⟨_, 16, _, rfl, .g128, rfl⟩
      · exact ⟨_, 24, _, rfl, .g192, rfl⟩
      · exact ⟨_, 32, _, rfl, .g256, rfl⟩
      · exact ⟨_, 32, _, rfl, .c128, rfl⟩
      · exact ⟨_, 48, _, rfl, .c192, rfl⟩
      · exact ⟨_, 64, _, rfl, .c256, rfl⟩
    · cases h
  · cases h
  · cases h
  · cases h

theorem ecKwAlg_inv {alg : PyVal} {post : Bytes} {n : Nat} (h : ecKwAlg alg = some (post, n)) :
    ∃ w k, alg = .str ("ECDH-ES+" ++ w) ∧ MgmtName w (.wrap k) ∧ post = utf8Encode w ∧ n = 8 * k := by
  unfold ecKwAlg at h
  split at h
  · cases h; exact ⟨"A128KW", 16, by assumption, .a128, rfl, rfl⟩
  split at h
  · cases h; exact ⟨"A192KW", 24, by assumption, .a192, rfl, rfl⟩
  split at h
  · cases h; exact ⟨"A256KW", 32, by assumption, .a256, rfl, rfl⟩
  · cases h

theorem ecDecSetup_inv {E : Env} {j : Jwt} {k : Key} {s : Bytes × Bytes × Bytes × Bytes}
    (h : ecDecSetup E j k = .ok s) :
    ∃ (hd : PyDict) (alg : String), j.headers = .dict hd ∧ PyDict.get? hd "alg" = some (.str alg) ∧
      j.partAt 2 = .ok s.2.1 ∧ j.partAt 3 = .ok s.2.2.1 ∧ j.partAt 4 = .ok s.2.2.2 ∧
      ((alg = "ECDH-ES" ∧ ∃ enc n i, PyDict.get? hd "enc" = some (.str enc) ∧ EncName enc n i ∧
        Agrees E hd k enc (8 * n) s.1) ∨
       ∃ w n kek jek, alg = "ECDH-ES+" ++ w ∧ MgmtName w (.wrap n) ∧ Agrees E hd k w (8 * n) kek ∧
        j.partAt 1 = .ok jek ∧ aesUnwrapKey E.C kek jek = .ok s.1) := by
  unfold ecDecSetup at h
  simp only [Bind.bind] at h
  obtain ⟨iv, hiv, h1⟩ := bind_ok_iff.mp h
  obtain ⟨ct, hct, h2⟩ := bind_ok_iff.mp h1
  obtain ⟨tag, htag, h3⟩ := bind_ok_iff.mp h2
  obtain ⟨ev, hev, h4⟩ := bind_ok_iff.mp h3
  obtain ⟨epub, hepub, h5⟩ := bind_ok_iff.mp h4
  obtain ⟨apu, hapu, h6⟩ := bind_ok_iff.mp h5
  obtain ⟨apv, hapv, h7⟩ := bind_ok_iff.mp h6
  obtain ⟨alg, halg, h8⟩ := bind_ok_iff.mp h7
  obtain ⟨⟨crv, ex, ey, ed, ec⟩, hatt, h9⟩ := bind_ok_iff.mp h8
  obtain ⟨hd, hhd, halg'⟩ := getItem_ok halg
  have hem := ecAttrs_ok hatt
  simp only at hem
  rw [hhd] at hev hapu hapv
  have hepk := headerEpk_ok hev
  obtain ⟨e, rfl⟩ : ∃ e, ev = .dict e := by
    unfold ecKeyOfHeader at hepub
    split at hepub
    · exact ⟨_, rfl⟩
    · cases hepub
  have agr : ∀ {name : String} {n : Nat} {c : Bytes} {a : PyVal × PyVal × PyVal × PyVal × KObj},
      ecAttrs k = .ok a →
      ecdhDerive E ec a.2.2.2.1 ex ey apu apv (utf8Encode name) n = .ok c → Agrees E hd k name n c := by
    intro name n c a ha hc
    obtain ⟨C, i, P, z, u, v, rfl, h1, h2, h3, h4, rfl, rfl, h5⟩ := ecdhDerive_inv hc
    exact ⟨C, i, ex, ey, P, z, u, v, ⟨e, epub, crv, ed, hepk, hepub, hem⟩,
      ⟨_, _, _, _, _, ecAttrs_ok ha, h1, h2⟩, esPub_point.mp h3, h4, headerParty_some hapu, headerParty_some hapv, h5⟩
  simp only at h9
  split at h9
  · rename_i ha
    subst ha
    obtain ⟨⟨n, eb⟩, hkl, h10⟩ := bind_ok_iff.mp h9
    obtain ⟨a, hka, h11⟩ := bind_ok_iff.mp h10
    obtain ⟨c, hc, h12⟩ := bind_ok_iff.mp h11
    cases h12
    unfold headerKeylen at hkl
    split at hkl
    · rename_i enc henc
      obtain ⟨d, hd', henc'⟩ := getItem_ok henc
      rw [hhd] at hd'
      cases hd'
      obtain ⟨s, n', i, rfl, hen, hr⟩ := keylen_inv hkl
      cases hr
      exact ⟨hd, _, hhd, halg', hiv, hct, htag, .inl ⟨rfl, s, n', i, henc', hen, agr hka hc⟩⟩
    · split at hkl <;> cases hkl
  · split at h9
    · rename_i post n hkw
      obtain ⟨a, hka, h10⟩ := bind_ok_iff.mp h9
      obtain ⟨kek, hkek, h11⟩ := bind_ok_iff.mp h10
      obtain ⟨jek, hjek, h12⟩ := bind_ok_iff.mp h11
      obtain ⟨c, hc, h13⟩ := bind_ok_iff.mp h12
      cases h13
      obtain ⟨w, kn, rfl, hw, rfl, rfl⟩ := ecKwAlg_inv hkw
      exact ⟨hd, _, hhd, halg', hiv, hct, htag, .inr ⟨w, kn, kek, jek, rfl, hw, agr hka hkek, hjek, hc⟩⟩
    · cases h9

/-- Unpacked tokens and their texts. -/
theorem unpack_parts {t : Bytes} {j : Jwt} (h : Jwt.unpack t = .ok j) {hd : PyDict}
    (hh : j.headers = .dict hd) {s0 ek iv ct tag : Bytes} (h0 : j.b64ProtectedHeader = .ok s0)
    (h1 : j.partAt 1 = .ok ek) (h2 : j.partAt 2 = .ok iv) (h3 : j.partAt 3 = .ok ct)
    (h4 : j.partAt 4 = .ok tag) : ∃ extra, ReadAs t hd s0 ek iv ct tag extra ∧
      j.part.length = 5 + extra.length := by
  obtain ⟨-, hseg, hf, p0, rest, s, hp, hu, hl⟩ := (C09_unpack_iff _ _).mp h
  have h1 := partAt_ok h1
  have h2 := partAt_ok h2
  have h3 := partAt_ok h3
  have h4 := partAt_ok h4
  rw [hp] at h1 h2 h3 h4
  rcases rest with _ | ⟨q1, _ | ⟨q2, _ | ⟨q3, _ | ⟨q4, qs⟩⟩⟩⟩ <;> simp at h1 h2 h3 h4
  subst h1 h2 h3 h4
  rw [hp] at hf
  generalize hb : j.b64part = bp at hf hseg
  cases hf with
  | cons a0 hf =>
    cases hf with
    | cons a1 hf =>
      cases hf with
      | cons a2 hf =>
        cases hf with
        | cons a3 hf =>
          cases hf with
          | cons a4 hf =>
            rename_i bs
            unfold Jwt.b64ProtectedHeader at h0
            rw [hb] at h0
            simp only [List.getElem?_cons_zero] at h0
            cases h0
            refine ⟨bs, ⟨⟨_, _, _, _, hseg, a1, a2, a3, a4⟩, p0, s, a0, hu, by rw [← hh]; exact hl⟩, ?_⟩
            rw [hp]
            simp only [List.length_cons, hf.length_eq]
            omega

theorem tokenOf_received {o : Jwe} {token t : Bytes} (h : Received o token t) {j : Jwt}
    (hj : o.tokenOf token = .ok j) : Jwt.unpack t = .ok j := by
  unfold Jwe.tokenOf at hj
  rcases h with ⟨h0, rfl⟩ | ⟨rfl, j', h1, h2⟩
  · rw [if_pos h0] at hj
    exact hj
  · rw [if_neg (by simp), h1] at hj
    cases hj
    exact h2

theorem startsWith_prefix (s p : String) : startsWith s p = true ↔ p.toList <+: s.toList := by
  unfold startsWith
  simp

theorem endsWith_suffix (s p : String) : endsWith s p = true ↔ p.toList <:+ s.toList := by
  unfold endsWith
  simp

/-- The names that lead to each class. -/
def KindName (s : String) : JweKind → Prop
  | .rsa => s = "RSA1_5" ∨ s = "RSA-OAEP" ∨ s = "RSA-OAEP-256"
  | .sym => ∃ x, s.toList = 'A' :: x ∧ ['K', 'W'] <:+ s.toList
  | .ec => True

theorem jweKind_inv {alg : PyVal} {kind : JweKind} (h : jweKind alg = .ok kind) :
    ∃ s, alg = .str s ∧ KindName s kind := by
  unfold jweKind at h
  split at h
  · rename_i s
    refine ⟨s, rfl, ?_⟩
    split at h
    · cases h; simp only [KindName]; tauto
    split at h
    · rename_i hs
      cases h
      rw [Bool.and_eq_true, startsWith_prefix, endsWith_suffix] at hs
      obtain ⟨⟨x, hx⟩, h2⟩ := hs
      exact ⟨x, hx.symm, h2⟩
    split at h
    · cases h; trivial
    · cases h
  · cases h
  · cases h

/-- What a successful decryption did. -/
theorem decrypt_inv {E : Env} (hC : E.C.Lawful) {o : Jwe} {rnd : JweRnd} {token t : Bytes}
    {keys : List Key} {alg : PyVal} {cek m : Bytes} (ht : Received o token t)
    (h : (o.decrypt E rnd token keys alg cek).1 = .ok m) :
    ∃ hd a enc s0 ek iv ct tag extra ckey pt, ReadAs t hd s0 ek iv ct tag extra ∧
      PyDict.get? hd "alg" = some (.str a) ∧ PyDict.get? hd "enc" = some (.str enc) ∧
      KeyFrom E (Candidate o keys) hd a enc cek ek ckey ∧ jweDecrypt E (.str enc) ckey ct s0 iv tag = .ok pt ∧
      Delivered E hd a pt m ∧ (alg.truthy = true → alg.pyEq (.str a) = true) ∧
      PyDict.get? (o.decrypt E rnd token keys alg cek).2.dict "cek" =
        some (if a = "RSA1_5" ∨ a = "RSA-OAEP" ∨ a = "RSA-OAEP-256" then .bytes ckey else .none) := by
  unfold Jwe.decrypt at h ⊢
  split at h
  swap
  · cases h
  rename_i m' c hdj

  cases h
  simp only [PyDict.get?_set, if_true]
  simp only [Bind.bind] at hdj
  obtain ⟨j, hj, hd1⟩ := bind_ok_iff.mp hdj
  have hun := tokenOf_received ht hj
  unfold Jwe.decryptJwt at hd1
  simp only [Bind.bind] at hd1
  obtain ⟨halg, hha, hd2⟩ := bind_ok_iff.mp hd1
  obtain ⟨hd, hhd, hga⟩ := getItem_ok hha
  split at hd2
  · cases hd2
  rename_i hgate
  obtain ⟨src, hsrc, hd3⟩ := bind_ok_iff.mp hd2
  obtain ⟨ks, hks, hd4⟩ := bind_ok_iff.mp hd3
  have hcand := pickKeys_candidate hsrc hks
  split at hd4
  · cases hd4
  obtain ⟨kind, hkind, hd5⟩ := bind_ok_iff.mp hd4
  obtain ⟨a, rfl, hak⟩ := jweKind_inv hkind
  have hgate' : alg.truthy = true → alg.pyEq (.str a) = true := by
    intro htr
    by_contra hc
    exact hgate ⟨htr, by simpa using hc⟩
  -- from the content key and the parts to the claim
  have fin : ∀ {ckey ek pt : Bytes}, Used E j ckey pt → j.partAt 1 = .ok ek → Delivered E hd a pt m →
      c = (if a = "RSA1_5" ∨ a = "RSA-OAEP" ∨ a = "RSA-OAEP-256" then .bytes ckey else .none) →
      (∀ enc, PyDict.get? hd "enc" = some (.str enc) → KeyFrom E (Candidate o keys) hd a enc cek ek ckey) →
      ∃ hd a enc s0 ek iv ct tag extra ckey pt, ReadAs t hd s0 ek iv ct tag extra ∧
        PyDict.get? hd "alg" = some (.str a) ∧ PyDict.get? hd "enc" = some (.str enc) ∧
        KeyFrom E (Candidate o keys) hd a enc cek ek ckey ∧ jweDecrypt E (.str enc) ckey ct s0 iv tag = .ok pt ∧
        Delivered E hd a pt m ∧ (alg.truthy = true → alg.pyEq (.str a) = true) ∧
        some c = some (if a = "RSA1_5" ∨ a = "RSA-OAEP" ∨ a = "RSA-OAEP-256" then .bytes ckey else .none) := by
    rintro ckey ek pt ⟨enc, s0, iv, ct, tag, henc, hs0, hiv, hct, htag, hdec⟩ hek hdel hcc hkf
    obtain ⟨encs, rfl, hau⟩ := jweDecrypt_authentic hC hdec
    obtain ⟨d, hd', henc'⟩ := getItem_ok henc
    rw [hhd] at hd'
    cases hd'
    obtain ⟨extra, hra, -⟩ := unpack_parts hun hhd hs0 hek hiv hct htag
    exact ⟨hd, a, encs, s0, ek, iv, ct, tag, extra, ckey, pt, hra, hga, henc', hkf _ henc', hdec, hdel, hgate',
      by rw [hcc]⟩
  cases kind with
  | rsa =>
    simp only [KindName] at hd5 hak
    rcases decryptTry_inv hd5 with ⟨hc, hby⟩ | ⟨k, hk, ka, n, hka, hby⟩
    · simp only [decryptBy] at hby
      obtain ⟨r, hr, hrc⟩ := map_ok hby
      cases hrc
      obtain ⟨ckey, pt, hu, hcc, hun', jek, hjek, ⟨-, rfl⟩ | ⟨_, _, h0, -⟩⟩ := rsaDecrypt_inv (m := r.1) (c := r.2) hr
      · exact fin hu hjek (.inl ⟨hak, hun' hd hhd⟩) (by rw [if_pos hak, hcc]) fun enc _ => .given hc (by tauto)
      · exact absurd h0 hc
    · simp only [decryptBy] at hby
      obtain ⟨r, hr, hrc⟩ := map_ok hby
      cases hrc
      obtain ⟨ckey, pt, hu, hcc, hun', jek, hjek, ⟨h0, -⟩ | ⟨rk, al, -, hkey, hal, hop, -⟩⟩ :=
        rsaDecrypt_inv (m := r.1) (c := r.2) hr
      · exact absurd rfl h0
      · cases hkey
        rw [hha] at hal
        cases hal
        exact fin hu hjek (.inl ⟨hak, hun' hd hhd⟩) (by rw [if_pos hak, hcc]) fun enc _ => .rsa (hcand k hk) hka hop
  | sym =>
    simp only [KindName] at hd5 hak
    have hnr : ¬ (a = "RSA1_5" ∨ a = "RSA-OAEP" ∨ a = "RSA-OAEP-256") := by
      obtain ⟨x, hx, -⟩ := hak
      rintro (rfl | rfl | rfl) <;> (revert hx; simp)
    rcases decryptTry_inv hd5 with ⟨hc, hby⟩ | ⟨k, hk, ka, n, hka, hby⟩
    · simp only [decryptBy] at hby
      obtain ⟨r, hr, hrc⟩ := map_ok hby
      cases hrc
      obtain ⟨ckey, hu, hlen, ⟨-, rfl⟩ | ⟨_, _, h0, -⟩⟩ := symDecrypt_inv hr
      · have : j.partAt 1 = .ok (j.part[1]'(by omega)) := by
          unfold Jwt.partAt
          rw [List.getElem?_eq_getElem (by omega)]
        exact fin hu this (.inr ⟨hnr, rfl⟩) (by rw [if_neg hnr]) fun enc _ => .given hc (by tauto)
      · exact absurd h0 hc
    · simp only [decryptBy] at hby
      obtain ⟨r, hr, hrc⟩ := map_ok hby
      cases hrc
      obtain ⟨ckey, hu, hlen, ⟨h0, -⟩ | ⟨jek, kek, -, hjek, hkey, hop⟩⟩ := symDecrypt_inv hr
      · exact absurd rfl h0
      · cases hkey
        exact fin hu hjek (.inr ⟨hnr, rfl⟩) (by rw [if_neg hnr]) fun enc _ => .wrapped (hcand k hk) hak hka hop
  | ec =>
    rcases ks with _ | ⟨k, l⟩
    · cases hd5
    simp only at hd5
    obtain ⟨s, hs, hd6⟩ := bind_ok_iff.mp hd5
    obtain ⟨hd', al, hhd', hal, hiv, hct, htag, hkf⟩ := ecDecSetup_inv hs
    rw [hhd] at hhd'
    cases hhd'
    rw [hga] at hal
    cases hal
    have hdec : ecDecrypt E j s = .ok m ∧ c = .none := by
      rcases decryptTry_inv hd6 with ⟨hc, hby⟩ | ⟨k, hk, ka, n, hka, hby⟩ <;>
      · simp only [decryptBy] at hby
        obtain ⟨r, hr, hrc⟩ := map_ok hby
        cases hrc
        exact ⟨hr, rfl⟩
    obtain ⟨hm2, hcn⟩ := hdec
    have hnr : ¬ (a = "RSA1_5" ∨ a = "RSA-OAEP" ∨ a = "RSA-OAEP-256") := by
      rintro (rfl | rfl | rfl) <;> cases hkind
    obtain ⟨enc, s0, henc, hs0, -, hjd⟩ := ecDecrypt_inv hm2
    have hu : Used E j s.1 m := ⟨enc, s0, _, _, _, henc, hs0, hiv, hct, htag, hjd⟩
    have hk : Candidate o keys k := hcand k (by simp)
    rcases hkf with ⟨rfl, encs, n, i, he1, he2, hag⟩ | ⟨w, n, kek, jek, rfl, hw, hag, hjek, hop⟩
    · have hp1 : ∃ jek, j.partAt 1 = .ok jek := by
        have := partAt_ok hiv
        have hlt := (List.getElem?_eq_some_iff.mp this).1
        refine ⟨j.part[1]'(by omega), ?_⟩
        unfold Jwt.partAt
        rw [List.getElem?_eq_getElem (by omega)]
      obtain ⟨jek, hjek⟩ := hp1
      refine fin hu hjek (.inr ⟨hnr, rfl⟩) (by rw [if_neg hnr, hcn]) fun enc' he' => ?_
      rw [he1] at he'
      cases he'
      exact .direct hk rfl he2 hag
    · exact fin hu hjek (.inr ⟨hnr, rfl⟩) (by rw [if_neg hnr, hcn]) fun enc' he' => .agreeWrap hk rfl hw hag hop

/-- **C60.** Whatever `decrypt` returns, the token is made of at least five segments, its header
names one of the six content algorithms, there is a content key that the caller gave or that one of
the keys yields, and under this content key the tag authenticates the header segment as sent, the iv
and the ciphertext. -/
theorem C60_authenticated {E : Env} (hC : E.C.Lawful) {o : Jwe} {rnd : JweRnd} {token t : Bytes}
    {keys : List Key} {alg : PyVal} {cek m : Bytes} (ht : Received o token t)
    (h : (o.decrypt E rnd token keys alg cek).1 = .ok m) :
    ∃ hd a enc s0 ek iv ct tag extra ckey, ReadAs t hd s0 ek iv ct tag extra ∧
      PyDict.get? hd "alg" = some (.str a) ∧ PyDict.get? hd "enc" = some (.str enc) ∧
      KeyFrom E (Candidate o keys) hd a enc cek ek ckey ∧ Authentic E enc ckey s0 iv ct tag ∧
      (alg.truthy = true → alg.pyEq (.str a) = true) := by
  obtain ⟨hd, a, enc, s0, ek, iv, ct, tag, extra, ckey, pt, h1, h2, h3, h4, h5, -, h6, -⟩ := decrypt_inv hC ht h
  obtain ⟨s, he, hau⟩ := jweDecrypt_authentic hC h5
  cases he
  exact ⟨hd, a, enc, s0, ek, iv, ct, tag, extra, ckey, h1, h2, h3, h4, hau, h6⟩

/-! ### Accepted modifications -/

namespace Spec

/-- Two different inputs of the authentication function with the same tag, under one content key:
a MAC collision (CBC) or a collision of GHASH masked by the encrypted nonce (GCM). -/
def Collision (E : Env) (enc : String) (ckey aad iv ct aad' iv' ct' : Bytes) : Prop :=
  ((enc = "A128GCM" ∨ enc = "A192GCM" ∨ enc = "A256GCM") ∧ ∃ K : Bytes, bytesToNat K = bytesToNat ckey ∧
    let N := natToBytesW 12 (bytesToNat iv)
    let N' := natToBytesW 12 (bytesToNat iv')
    let H := blockPoly (bytesToNat (E.C.enc K (List.replicate 16 0)))
    (N, gcmBlocks aad ct) ≠ (N', gcmBlocks aad' ct') ∧
    ghashPoly H (gcmBlocks aad ct) + blockPoly (bytesToNat (E.C.enc K (N ++ natToBytesW 4 1))) =
      ghashPoly H (gcmBlocks aad' ct') + blockPoly (bytesToNat (E.C.enc K (N' ++ natToBytesW 4 1)))) ∨
  ((enc = "A128CBC-HS256" ∨ enc = "A192CBC-HS384" ∨ enc = "A256CBC-HS512") ∧
    ∃ s a, (ckey.length, s, a) ∈ cbcHmacParams ∧ macInput aad iv ct ≠ macInput aad' iv' ct' ∧
      (E.H.hmac a (ckey.take s) (macInput aad iv ct)).take s =
        (E.H.hmac a (ckey.take s) (macInput aad' iv' ct')).take s)

/-- The iv as the algorithm uses it: a number for GCM. -/
def SameIv (enc : String) (iv iv' : Bytes) : Prop :=
  if enc = "A128GCM" ∨ enc = "A192GCM" ∨ enc = "A256GCM" then bytesToNat iv = bytesToNat iv' else iv = iv'

end Spec

theorem gcm_not_cbc {enc : String} (h : enc = "A128GCM" ∨ enc = "A192GCM" ∨ enc = "A256GCM")
    (h' : enc = "A128CBC-HS256" ∨ enc = "A192CBC-HS384" ∨ enc = "A256CBC-HS512") : False := by
  rcases h with rfl | rfl | rfl <;> revert h' <;> decide

/-- Under one content key the tag is determined by header, iv and ciphertext. -/
theorem C60_tag_unique {E : Env} {enc : String} {ckey aad iv ct tag iv' tag' : Bytes}
    (h : Authentic E enc ckey aad iv ct tag) (h' : Authentic E enc ckey aad iv' ct tag')
    (hiv : SameIv enc iv iv') : SameIv enc tag tag' := by
  unfold SameIv at *
  rcases h with ⟨he, h1, h2, K, k1, k2, ht⟩ | ⟨he, h1, h2, s, a, hp, ht⟩ <;>
  rcases h' with ⟨he', h1', h2', K', k1', k2', ht'⟩ | ⟨he', h1', h2', s', a', hp', ht'⟩
  · rw [if_pos he] at hiv ⊢
    have : K = K' := bytesToNat_inj (by rw [k2, k2']) (by rw [k1, k1'])
    subst this
    rw [← hiv] at ht'
    exact C45_tag_unique ht ht'
  · exact (gcm_not_cbc he he').elim
  · exact (gcm_not_cbc he' he).elim
  · have hn : ¬ (enc = "A128GCM" ∨ enc = "A192GCM" ∨ enc = "A256GCM") := fun h => gcm_not_cbc h he
    rw [if_neg hn] at hiv ⊢
    have hsa : s = s' ∧ a = a' := by
      simp only [cbcHmacParams, List.mem_cons, Prod.mk.injEq, List.not_mem_nil, or_false] at hp hp'
      rcases hp with ⟨h1, rfl, rfl⟩ | ⟨h1, rfl, rfl⟩ | ⟨h1, rfl, rfl⟩ <;>
        rcases hp' with ⟨h2, rfl, rfl⟩ | ⟨h2, rfl, rfl⟩ | ⟨h2, rfl, rfl⟩ <;>
        first | exact ⟨rfl, rfl⟩ | omega
    obtain ⟨rfl, rfl⟩ := hsa
    rw [ht, ht', hiv]

theorem natToBytesW12_inj {a b : Nat} (ha : a < 2 ^ 96) (hb : b < 2 ^ 96)
    (h : natToBytesW 12 a = natToBytesW 12 b) : a = b :=
  natToBytesW_inj (lt_of_lt_of_eq ha (by norm_num)) (lt_of_lt_of_eq hb (by norm_num)) h

/-- Two different triples authenticated by the same tag under one content key are a collision. -/
theorem C60_collision {E : Env} {enc : String} {ckey aad iv ct aad' iv' ct' tag tag' : Bytes}
    (h : Authentic E enc ckey aad iv ct tag) (h' : Authentic E enc ckey aad' iv' ct' tag')
    (ht : SameIv enc tag tag') (hne : ¬ (aad = aad' ∧ SameIv enc iv iv' ∧ ct = ct')) :
    Collision E enc ckey aad iv ct aad' iv' ct' := by
  unfold SameIv at *
  rcases h with ⟨he, h1, h2, K, k1, k2, ht1⟩ | ⟨he, h1, h2, s, a, hp, ht1⟩ <;>
  rcases h' with ⟨he', h1', h2', K', k1', k2', ht1'⟩ | ⟨he', h1', h2', s', a', hp', ht1'⟩
  · rw [if_pos he] at ht
    rw [if_pos he] at hne
    have : K = K' := bytesToNat_inj (by rw [k2, k2']) (by rw [k1, k1'])
    subst this
    refine .inl ⟨he, K, k1, ?_, ?_⟩
    · intro hc
      simp only [Prod.mk.injEq] at hc
      obtain ⟨e1, e2⟩ := C46_blocks_injective aad ct aad' ct' (by omega) (by omega) hc.2
      exact hne ⟨e1, natToBytesW12_inj h1 h1' hc.1, e2⟩
    · have a1 := ht1.2
      have a2 := ht1'.2
      rw [ht] at a1
      exact a1.symm.trans a2
  · exact (gcm_not_cbc he he').elim
  · exact (gcm_not_cbc he' he).elim
  · have hn : ¬ (enc = "A128GCM" ∨ enc = "A192GCM" ∨ enc = "A256GCM") := fun h => gcm_not_cbc h he
    rw [if_neg hn] at ht
    rw [if_neg hn] at hne
    have hsa : s = s' ∧ a = a' := by
      simp only [cbcHmacParams, List.mem_cons, Prod.mk.injEq, List.not_mem_nil, or_false] at hp hp'
      rcases hp with ⟨h1, rfl, rfl⟩ | ⟨h1, rfl, rfl⟩ | ⟨h1, rfl, rfl⟩ <;>
        rcases hp' with ⟨h2, rfl, rfl⟩ | ⟨h2, rfl, rfl⟩ | ⟨h2, rfl, rfl⟩ <;>
        first | exact ⟨rfl, rfl⟩ | omega
    obtain ⟨rfl, rfl⟩ := hsa
    refine .inr ⟨he, s, a, hp, ?_, ?_⟩
    · intro hc
      obtain ⟨e1, e2, e3⟩ := C40_injective _ _ _ _ _ _ h1 h1' h2 h2' hc
      exact hne ⟨e1, e2, e3⟩
    · rw [← ht1, ← ht1', ht]

theorem agrees_unique {E : Env} {h h' : PyDict} {k : Key} {name : String} {n : Nat} {c c' : Bytes}
    (he : PyDict.get? h "epk" = PyDict.get? h' "epk") (hu : PyDict.get? h "apu" = PyDict.get? h' "apu")
    (hv : PyDict.get? h "apv" = PyDict.get? h' "apv") (ha : Agrees E h k name n c)
    (ha' : Agrees E h' k name n c') : c = c' := by
  obtain ⟨C, d, x, y, P, z, u, v, ⟨e, ek, crv, ed, a1, a2, a3⟩, ⟨b1, b2, b3, b4, b5, b6, b7, b8⟩, a4, a5,
    ⟨s1, a6, a7⟩, ⟨s2, a8, a9⟩, a10⟩ := ha
  obtain ⟨C', d', x', y', P', z', u', v', ⟨e', ek', crv', ed', a1', a2', a3'⟩,
    ⟨b1', b2', b3', b4', b5', b6', b7', b8'⟩, a4', a5', ⟨s1', a6', a7'⟩, ⟨s2', a8', a9'⟩, a10'⟩ := ha'
  rw [he, a1'] at a1; cases a1
  have a2'' := a2'.symm.trans a2
  cases a2''
  rw [a3'] at a3; cases a3
  rw [b6'] at b6; cases b6
  rw [b7'] at b7; cases b7
  have a4'' := (esPub_point.mpr a4').symm.trans (esPub_point.mpr a4)
  cases a4''
  rw [a5'] at a5; cases a5
  rw [hu, a6'] at a6; cases a6
  rw [a7'] at a7; cases a7
  rw [hv, a8'] at a8; cases a8
  rw [a9'] at a9; cases a9
  rw [a10'] at a10; cases a10
  rfl

theorem rsaOpens_name {R : RsaLib} {alg : String} {r : RsaKey} {ek c : Bytes} (h : RsaOpens R alg r ek c) :
    alg = "RSA1_5" ∨ alg = "RSA-OAEP" ∨ alg = "RSA-OAEP-256" := by
  rcases h with ⟨h, -⟩ | ⟨h, -⟩ | ⟨h, -⟩ <;> tauto

theorem rsaOpens_unique {R : RsaLib} {alg : String} {r : RsaKey} {ek c c' : Bytes}
    (h : RsaOpens R alg r ek c) (h' : RsaOpens R alg r ek c') : c = c' := by
  rcases h with ⟨rfl, h⟩ | ⟨rfl, h⟩ | ⟨rfl, h⟩ <;> rcases h' with ⟨e, h'⟩ | ⟨e, h'⟩ | ⟨e, h'⟩ <;>
    first
    | (exfalso; revert e; decide)
    | (rw [h] at h'; cases h'; rfl)

/-- The encrypted key, the algorithms and the key (and for Diffie-Hellman three header parameters)
determine the content key. -/
theorem keyFrom_unique {E : Env} {cand : Key → Prop} {h h' : PyDict} {alg enc : String} {cek ek c c' : Bytes}
    (hc : ∀ x y, cand x → cand y → x = y) (hcek : cek = [] ∨ ∀ x, ¬ cand x)
    (he : PyDict.get? h "epk" = PyDict.get? h' "epk") (hu : PyDict.get? h "apu" = PyDict.get? h' "apu")
    (hv : PyDict.get? h "apv" = PyDict.get? h' "apv") (hk : KeyFrom E cand h alg enc cek ek c)
    (hk' : KeyFrom E cand h' alg enc cek ek c') : c = c' := by
  rcases hcek with rfl | hno
  swap
  · rcases hk with ⟨-, -⟩ | ⟨h1, -⟩ | ⟨h1, -⟩ | ⟨h1, -⟩ | ⟨h1, -⟩
    · rcases hk' with ⟨-, -⟩ | ⟨h1, -⟩ | ⟨h1, -⟩ | ⟨h1, -⟩ | ⟨h1, -⟩
      · rfl
      all_goals exact absurd h1 (hno _)
    all_goals exact absurd h1 (hno _)
  have notEc : ∀ w : String, (∃ x, ("ECDH-ES" ++ w).toList = 'A' :: x ∧ ['K', 'W'] <:+ ("ECDH-ES" ++ w).toList) →
      False := by
    rintro w ⟨x, hx, -⟩
    rw [String.toList_append] at hx
    have : ("ECDH-ES" : String).toList = ['E', 'C', 'D', 'H', '-', 'E', 'S'] := by decide
    rw [this] at hx
    simp at hx
  have notRsa : ∀ {r ek c}, RsaOpens E.R alg r ek c → (∃ x, alg.toList = 'A' :: x ∧ ['K', 'W'] <:+ alg.toList) →
      False := by
    rintro r ek c ho ⟨x, hx, -⟩
    rcases rsaOpens_name ho with rfl | rfl | rfl <;> revert hx <;> simp
  have ecRsa : ∀ {r ek c} {w : String}, RsaOpens E.R alg r ek c → alg = "ECDH-ES" ++ w → False := by
    rintro r ek c w ho hw
    have h2 := congrArg String.toList hw
    rw [String.toList_append] at h2
    have : ("ECDH-ES" : String).toList = ['E', 'C', 'D', 'H', '-', 'E', 'S'] := by decide
    rw [this] at h2
    rcases rsaOpens_name ho with rfl | rfl | rfl <;> revert h2 <;> simp
  have e0 : ("ECDH-ES" : String) = "ECDH-ES" ++ "" := by decide
  have e1 : ∀ w : String, "ECDH-ES+" ++ w = "ECDH-ES" ++ ("+" ++ w) := by
    intro w; rw [← String.append_assoc]; rfl
  rcases hk with ⟨h0, -⟩ | ⟨k1, k2, k3, k4⟩ | ⟨k1, k2, k3⟩ | ⟨k1, k2, k3, k4⟩ | ⟨k1, k2, k3, k4, k5⟩
  · exact absurd rfl h0
  · rcases hk' with ⟨h0, -⟩ | ⟨l1, l2, l3, l4⟩ | ⟨l1, l2, l3⟩ | ⟨l1, l2, l3, l4⟩ | ⟨l1, l2, l3, l4, l5⟩
    · exact absurd rfl h0
    · cases hc _ _ k1 l1
      rw [k3] at l3; cases l3
      rw [k4] at l4; cases l4
      rfl
    · exact (notRsa l3 k2).elim
    · rw [l2, e0] at k2; exact (notEc _ k2).elim
    · rw [l2, e1] at k2; exact (notEc _ k2).elim
  · rcases hk' with ⟨h0, -⟩ | ⟨l1, l2, l3, l4⟩ | ⟨l1, l2, l3⟩ | ⟨l1, l2, l3, l4⟩ | ⟨l1, l2, l3, l4, l5⟩
    · exact absurd rfl h0
    · exact (notRsa k3 l2).elim
    · cases hc _ _ k1 l1
      rw [k2] at l2; cases l2
      exact rsaOpens_unique k3 l3
    · exact (ecRsa k3 (l2.trans e0)).elim
    · exact (ecRsa k3 (l2.trans (e1 _))).elim
  · rcases hk' with ⟨h0, -⟩ | ⟨l1, l2, l3, l4⟩ | ⟨l1, l2, l3⟩ | ⟨l1, l2, l3, l4⟩ | ⟨l1, l2, l3, l4, l5⟩
    · exact absurd rfl h0
    · rw [k2, e0] at l2; exact (notEc _ l2).elim
    · exact (ecRsa l3 (k2.trans e0)).elim
    · cases hc _ _ k1 l1
      have : ∀ {a i b j : Nat}, EncName enc a i → EncName enc b j → a = b := by
        intro a i b j x y
        have h1 := (encName_lookup x).1
        rw [(encName_lookup y).1] at h1
        cases h1; rfl
      cases this k3 l3
      exact agrees_unique he hu hv k4 l4
    · exfalso
      rw [k2] at l2
      have := congrArg String.length l2
      rw [String.length_append] at this
      have a1 : ("ECDH-ES" : String).length = 7 := by decide
      have a2 : ("ECDH-ES+" : String).length = 8 := by decide
      omega
  · rcases hk' with ⟨h0, -⟩ | ⟨l1, l2, l3, l4⟩ | ⟨l1, l2, l3⟩ | ⟨l1, l2, l3, l4⟩ | ⟨l1, l2, l3, l4, l5⟩
    · exact absurd rfl h0
    · rw [k2, e1] at l2; exact (notEc _ l2).elim
    · exact (ecRsa l3 (k2.trans (e1 _))).elim
    · exfalso
      rw [k2] at l2
      have := congrArg String.length l2
      rw [String.length_append] at this
      have a1 : ("ECDH-ES" : String).length = 7 := by decide
      have a2 : ("ECDH-ES+" : String).length = 8 := by decide
      omega
    · cases hc _ _ k1 l1
      rw [k2] at l2
      have hw := congrArg String.toList l2
      rw [String.toList_append, String.toList_append] at hw
      have hw := String.toList_inj.mp (List.append_cancel_left hw)
      subst hw
      have : ∀ {w : String} {a b : Nat}, MgmtName w (.wrap a) → MgmtName w (.wrap b) → a = b := by
        intro w a b x y
        have key : ∀ {w : String} {a : Nat}, MgmtName w (.wrap a) → alg2keylen (.str w) = some a := by
          intro w a x; cases x <;> decide
        have h1 := key x
        rw [key y] at h1
        cases h1; rfl
      cases this k3 l3
      have := agrees_unique he hu hv k4 l4
      subst this
      rw [k5] at l5; cases l5
      rfl

/-- **C60.** If two tokens with the same encrypted key, algorithms and (Diffie-Hellman) key agreement
parameters are both accepted with one key, or with one supplied content key, then equal tags mean that
header segment, iv and ciphertext are equal or a collision was found; and equal header segments, ivs
and ciphertexts have equal tags. -/
theorem C60_modified {E : Env} (hC : E.C.Lawful) {o o' : Jwe} {rnd rnd' : JweRnd} {token token' : Bytes}
    {keys : List Key} {cek m m' : Bytes} (hone : (cek = [] ∧ ∃ k, keys = [k]) ∨ (keys = [] ∧ o.jwk = none ∧ o'.jwk = none))
    (h : (o.decrypt E rnd token keys .none cek).1 = .ok m)
    (h' : (o'.decrypt E rnd' token' keys .none cek).1 = .ok m')
    {hd hd' : PyDict} {s0 s0' ek iv iv' ct ct' tag tag' : Bytes} {ex ex' : List Bytes}
    (hr : ReadAs token hd s0 ek iv ct tag ex) (hr' : ReadAs token' hd' s0' ek iv' ct' tag' ex')
    (hsame : ∀ n ∈ ["alg", "enc", "epk", "apu", "apv"], PyDict.get? hd n = PyDict.get? hd' n) :
    ∃ enc ckey, PyDict.get? hd "enc" = some (.str enc) ∧
      (SameIv enc tag tag' → (s0 = s0' ∧ SameIv enc iv iv' ∧ ct = ct') ∨
        Collision E enc ckey s0 iv ct s0' iv' ct') ∧
      (s0 = s0' → SameIv enc iv iv' → ct = ct' → SameIv enc tag tag') := by
  have hne : ∀ {t hd s0 ek iv ct tag ex}, ReadAs t hd s0 ek iv ct tag ex → t ≠ [] := by
    rintro t hd s0 ek iv ct tag ex ⟨⟨s1, s2, s3, s4, hs, -⟩, -⟩ rfl
    have := hs.2.1
    simp [joinDot] at this
  have huniq : ∀ {t hd s0 ek iv ct tag ex hd' s0' ek' iv' ct' tag' ex'}, ReadAs t hd s0 ek iv ct tag ex →
      ReadAs t hd' s0' ek' iv' ct' tag' ex' →
      hd = hd' ∧ s0 = s0' ∧ ek = ek' ∧ iv = iv' ∧ ct = ct' ∧ tag = tag' := by
    rintro t hd s0 ek iv ct tag ex hd' s0' ek' iv' ct' tag' ex' ⟨⟨s1, s2, s3, s4, hs, a1, a2, a3, a4⟩, p, q, a5, a6, a7⟩
      ⟨⟨s1', s2', s3', s4', hs', b1, b2, b3, b4⟩, p', q', b5, b6, b7⟩
    have := C09_segments_unique hs hs'
    simp only [List.cons.injEq] at this
    obtain ⟨rfl, rfl, rfl, rfl, rfl, -⟩ := this
    rw [a1] at b1; cases b1
    rw [a2] at b2; cases b2
    rw [a3] at b3; cases b3
    rw [a4] at b4; cases b4
    rw [a5] at b5; cases b5
    rw [a6] at b6; cases b6
    rw [a7] at b7; cases b7
    exact ⟨rfl, rfl, rfl, rfl, rfl, rfl⟩
  obtain ⟨hd1, a, enc, t0, ek1, iv1, ct1, tag1, ex1, c, r1, ha, he, hk, hau, -⟩ :=
    C60_authenticated hC (.inl ⟨hne hr, rfl⟩) h
  obtain ⟨hd2, a', enc', t0', ek2, iv2, ct2, tag2, ex2, c', r2, ha', he', hk', hau', -⟩ :=
    C60_authenticated hC (.inl ⟨hne hr', rfl⟩) h'
  obtain ⟨rfl, rfl, rfl, rfl, rfl, rfl⟩ := huniq hr r1
  obtain ⟨rfl, rfl, rfl, rfl, rfl, rfl⟩ := huniq hr' r2
  rw [hsame "alg" (by simp), ha'] at ha
  cases ha
  have he0 := he
  rw [hsame "enc" (by simp), he'] at he
  cases he
  have hcand : (∀ x, Candidate o keys x ↔ Candidate o' keys x) ∧
      (∀ x y, Candidate o keys x → Candidate o keys y → x = y) ∧ (cek = [] ∨ ∀ x, ¬ Candidate o keys x) := by
    unfold Candidate
    rcases hone with ⟨h0, k, rfl⟩ | ⟨rfl, h1, h2⟩
    · simp [h0]
    · simp [h1, h2]
  have hcc : Candidate o keys = Candidate o' keys := funext fun x => propext (hcand.1 x)
  rw [← hcc] at hk'
  have := keyFrom_unique hcand.2.1 hcand.2.2 (hsame _ (by simp)) (hsame _ (by simp)) (hsame _ (by simp)) hk hk'
  subst this
  refine ⟨enc, c, he0, ?_, ?_⟩
  · intro ht
    by_cases heq : s0 = s0' ∧ SameIv enc iv iv' ∧ ct = ct'
    · exact .inl heq
    · exact .inr (C60_collision hau hau' ht heq)
  · rintro rfl hiv rfl
    exact C60_tag_unique hau hau' hiv

/-! ### C61 -/

/-- The name is one of the ten supported ones. -/
def Spec.Supported (a : String) : Prop := ∃ m, MgmtName a m

/-- **C61.** `decrypt` only returns if the header has a supported `enc`, an `alg` that is the one the
caller expects if they named one, and is supported; the exception are names `A…KW` with a content key
supplied by the caller (the name is not used then) or with a key object that is not a symmetric one. -/
theorem C61_gate {E : Env} (hC : E.C.Lawful) {o : Jwe} {rnd : JweRnd} {token t : Bytes}
    {keys : List Key} {alg : PyVal} {cek m : Bytes} (ht : Received o token t)
    (h : (o.decrypt E rnd token keys alg cek).1 = .ok m) :
    ∃ hd s0 ek iv ct tag extra a enc, ReadAs t hd s0 ek iv ct tag extra ∧
      PyDict.get? hd "alg" = some (.str a) ∧ PyDict.get? hd "enc" = some (.str enc) ∧
      (∃ n i, EncName enc n i) ∧ (alg.truthy = true → alg = .str a) ∧
      (Supported a ∨ ((∃ x, a.toList = 'A' :: x ∧ ['K', 'W'] <:+ a.toList) ∧
        (cek ≠ [] ∨ ∃ k, Candidate o keys k ∧ ∀ kk, k.mat ≠ .sym kk))) := by
  obtain ⟨hd, a, enc, s0, ek, iv, ct, tag, ex, c, hr, ha, he, hk, hau, hal⟩ := C60_authenticated hC ht h
  refine ⟨hd, s0, ek, iv, ct, tag, ex, a, enc, hr, ha, he, ?_, fun h => (pyEq_str_iff _ _).mp (hal h), ?_⟩
  · rcases hau with ⟨rfl | rfl | rfl, -⟩ | ⟨rfl | rfl | rfl, -⟩
    · exact ⟨_, _, .g128⟩
    · exact ⟨_, _, .g192⟩
    · exact ⟨_, _, .g256⟩
    · exact ⟨_, _, .c128⟩
    · exact ⟨_, _, .c192⟩
    · exact ⟨_, _, .c256⟩
  · have hrsa : a = "RSA1_5" ∨ a = "RSA-OAEP" ∨ a = "RSA-OAEP-256" → Supported a := by
      rintro (rfl | rfl | rfl)
      · exact ⟨_, .rsa15⟩
      · exact ⟨_, .oaep⟩
      · exact ⟨_, .oaep256⟩
    cases hk with
    | given h0 h1 =>
      rcases h1 with h1 | h1 | h1 | h1
      · exact .inl (hrsa (.inl h1))
      · exact .inl (hrsa (.inr (.inl h1)))
      · exact .inl (hrsa (.inr (.inr h1)))
      · exact .inr ⟨h1, .inl h0⟩
    | @wrapped k kek _ k1 k2 k3 k4 =>
      by_cases hs : ∃ kk, k.mat = .sym kk
      · left
        obtain ⟨kk, hkk⟩ := hs
        unfold Key.encryptionKey at k3
        rw [hkk] at k3
        obtain ⟨b, hb, -⟩ := map_ok k3
        unfold symEncryptionKey at hb
        simp only [Bind.bind] at hb
        obtain ⟨kb, -, hb1⟩ := bind_ok_iff.mp hb
        have hsome : ∃ n, alg2keylen (.str a) = some n := by
          rcases h0 : alg2keylen (.str a) with _ | n
          · rw [h0] at hb1; cases hb1
          · exact ⟨n, rfl⟩
        obtain ⟨n, hn⟩ := hsome
        obtain ⟨x, hx, hx2⟩ := k2
        unfold alg2keylen at hn
        simp only [PyVal.str.injEq] at hn
        split at hn
        · rename_i e; subst e; exact ⟨_, .a128⟩
        split at hn
        · rename_i e; subst e; exact ⟨_, .a192⟩
        split at hn
        · rename_i e; subst e; exact ⟨_, .a256⟩
        split at hn
        · rename_i e; subst e; revert hx; simp
        split at hn
        · rename_i e; subst e; revert hx; simp
        split at hn
        · rename_i e; subst e; revert hx; simp
        · cases hn
      · exact .inr ⟨k2, .inr ⟨k, k1, fun kk hkk => hs ⟨kk, hkk⟩⟩⟩
    | rsa k1 k2 k3 => exact .inl (hrsa (rsaOpens_name k3))
    | direct k1 k2 k3 k4 => subst k2; exact .inl ⟨_, .dir⟩
    | agreeWrap k1 k2 k3 k4 k5 =>
      subst k2
      cases k3
      · exact .inl ⟨_, .ec128⟩
      · exact .inl ⟨_, .ec192⟩
      · exact .inl ⟨_, .ec256⟩

/-- **C61.** An unexpected `alg` is refused before any key is used. -/
theorem C61_mismatch {E : Env} {o : Jwe} {rnd : JweRnd} {token t : Bytes} {keys : List Key} {alg : PyVal}
    {cek : Bytes} (ht : Received o token t) {j : Jwt} (hj : Jwt.unpack t = .ok j) {hd : PyDict} {v : PyVal}
    (hh : j.headers = .dict hd) (hv : PyDict.get? hd "alg" = some v) (htr : alg.truthy = true)
    (hne : alg.pyEq v = false) :
    o.decrypt E rnd token keys alg cek = (.error .wrongEncryptionAlgorithm, o) := by
  have htok : o.tokenOf token = .ok j := by
    unfold Jwe.tokenOf
    rcases ht with ⟨h0, rfl⟩ | ⟨rfl, j', h1, h2⟩
    · rw [if_pos h0, hj]
    · rw [if_neg (by simp), h1]
      rw [hj] at h2; cases h2; rfl
  unfold Jwe.decrypt Jwe.decryptJwt
  simp only [htok, hh, PyVal.getItem, hv, Bind.bind, Except.bind, htr, hne, and_self, if_true]

/-! ### Examples -/

/-- An encrypted key for the examples: 16 bytes 7, wrapped with the key of `exShared`. -/
def exEk : Bytes := [166, 166, 166, 166, 166, 166, 166, 166, 15, 7, 7, 7, 7, 7, 7, 7, 3, 7, 7, 7, 7, 7, 7, 7]

theorem exOpens : ∃ ct tag, ∀ z rnd, (Jwe.decrypt toyEnv {} rnd
    (exJweToken exEk (List.replicate z 0 ++ List.replicate 12 9) ct tag) [exShared]).1 = .ok (ascii "hi") := by
  obtain ⟨ct, tag, h⟩ := encSetup_total (E := toyEnv) toyCipher_lawful toyHashes_lawful (rnd := exRnd) .g128
    (m := ascii "hi") (aad := b64e (utf8Encode exJweHead)) (key := List.replicate 16 7)
    (iv := List.replicate 12 9) (by simp) (by simp) (by decide) (by decide +kernel)
  refine ⟨ct, tag, fun z rnd => ?_⟩
  obtain ⟨m, hm, -, hd⟩ := encSetup_roundtrip toyCipher_lawful toyHashes_lawful (by simp) (by simp) h
  cases hm
  have h1 := sym_decrypt_token (E := toyEnv) toyHashes_lawful (o := {}) (rnd := rnd) (keys := [exShared])
    .a128 (exJweParts exEk (List.replicate 12 9) ct tag) rfl rfl exShared_ok (.inl ⟨by simp, rfl⟩)
    (.inr ⟨rfl, .inl ⟨rfl, rfl⟩⟩) ⟨[], [], rfl, exShared_picked, by simp⟩
    (cek := List.replicate 16 7) (by decide +kernel) hd
  have h2 := C79_zeros (z := z) (z' := 0) (E := toyEnv) (exJweParts exEk (List.replicate 12 9) ct tag)
    (exJweParts exEk (List.replicate z 0 ++ List.replicate 12 9) ct tag) rfl (.inl rfl) {} rnd [exShared] .none []
  rw [h2]; exact h1

theorem jweParts_readAs {t s0 ek iv ct tag : Bytes} {h : PyDict}
    (hp : JweParts t s0 (.dict h) ek iv ct tag) : ReadAs t h s0 ek iv ct tag [] := by
  obtain ⟨hb, hu⟩ := jweParts_unpack hp
  obtain ⟨extra, h1, h2⟩ := unpack_parts hu (hd := h) rfl (s0 := s0) (ek := ek) (iv := iv) (ct := ct)
    (tag := tag) rfl rfl rfl rfl rfl
  have : extra = [] := by
    rcases extra with _ | ⟨a, l⟩
    · rfl
    · simp at h2
  rwa [this] at h1

theorem exToken_ne (ek iv ct tag : Bytes) : exJweToken ek iv ct tag ≠ [] := by simp [exJweToken]

/-- C60_authenticated, C61_gate. -/
example : ∃ token, (Jwe.decrypt toyEnv {} exRnd token [exShared]).1 = .ok (ascii "hi") ∧
    (∃ hd a enc s0 ek iv ct tag extra ckey, ReadAs token hd s0 ek iv ct tag extra ∧
      PyDict.get? hd "alg" = some (.str a) ∧ PyDict.get? hd "enc" = some (.str enc) ∧
      KeyFrom toyEnv (Candidate {} [exShared]) hd a enc [] ek ckey ∧
      Authentic toyEnv enc ckey s0 iv ct tag ∧ (PyVal.none.truthy = true → PyVal.none.pyEq (.str a) = true)) ∧
    ∃ hd s0 ek iv ct tag extra a enc, ReadAs token hd s0 ek iv ct tag extra ∧
      PyDict.get? hd "alg" = some (.str a) ∧ PyDict.get? hd "enc" = some (.str enc) ∧
      (∃ n i, EncName enc n i) ∧ (PyVal.none.truthy = true → PyVal.none = .str a) ∧
      (Supported a ∨ ((∃ x, a.toList = 'A' :: x ∧ ['K', 'W'] <:+ a.toList) ∧
        (([] : Bytes) ≠ [] ∨ ∃ k, Candidate {} [exShared] k ∧ ∀ kk, k.mat ≠ .sym kk))) := by
  obtain ⟨ct, tag, h⟩ := exOpens
  have h := h 0 exRnd
  exact ⟨_, h, C60_authenticated toyCipher_lawful (.inl ⟨exToken_ne _ _ _ _, rfl⟩) h,
    C61_gate toyCipher_lawful (.inl ⟨exToken_ne _ _ _ _, rfl⟩) h⟩

/-- C60_modified: the second token has two zero bytes in front of the iv. -/
example : ∃ ct tag : Bytes, ∃ enc ckey, PyDict.get? exJweDict "enc" = some (.str enc) ∧
      (SameIv enc tag tag → (b64e (utf8Encode exJweHead) = b64e (utf8Encode exJweHead) ∧
          SameIv enc (List.replicate 12 9) (List.replicate 2 0 ++ List.replicate 12 9) ∧ ct = ct) ∨
        Collision toyEnv enc ckey (b64e (utf8Encode exJweHead)) (List.replicate 12 9) ct
          (b64e (utf8Encode exJweHead)) (List.replicate 2 0 ++ List.replicate 12 9) ct) ∧
      (b64e (utf8Encode exJweHead) = b64e (utf8Encode exJweHead) →
        SameIv enc (List.replicate 12 9) (List.replicate 2 0 ++ List.replicate 12 9) → ct = ct →
        SameIv enc tag tag) := by
  obtain ⟨ct, tag, h⟩ := exOpens
  exact ⟨ct, tag, C60_modified (ek := exEk) toyCipher_lawful (.inl ⟨rfl, _, rfl⟩) (h 0 exRnd) (h 2 exRnd)
    (jweParts_readAs (exJweParts _ _ _ _)) (jweParts_readAs (exJweParts _ _ _ _)) (fun _ _ => rfl)⟩

/-- C60_tag_unique and C60_collision: for the content key, iv and ciphertext of the token above. -/
example : ∃ ckey ct tag : Bytes, Authentic toyEnv "A128GCM" ckey (b64e (utf8Encode exJweHead)) (List.replicate 12 9) ct tag ∧
    Authentic toyEnv "A128GCM" ckey (b64e (utf8Encode exJweHead)) (List.replicate 2 0 ++ List.replicate 12 9) ct tag ∧
    SameIv "A128GCM" (List.replicate 12 9) (List.replicate 2 0 ++ List.replicate 12 9) := by
  obtain ⟨ct, tag, h⟩ := encSetup_total (E := toyEnv) toyCipher_lawful toyHashes_lawful (rnd := exRnd) .g128
    (m := ascii "hi") (aad := b64e (utf8Encode exJweHead)) (key := List.replicate 16 7)
    (iv := List.replicate 12 9) (by simp) (by simp) (by decide) (by decide +kernel)
  obtain ⟨m, hm, -, hd⟩ := encSetup_roundtrip toyCipher_lawful toyHashes_lawful (by simp) (by simp) h
  obtain ⟨s, hs, ha⟩ := jweDecrypt_authentic toyCipher_lawful hd
  cases hs
  have hz : bytesToNat (List.replicate 2 0 ++ List.replicate 12 9) = bytesToNat (List.replicate 12 9) := by
    decide +kernel
  refine ⟨_, ct, tag, ha, ?_, ?_⟩
  · rcases ha with h | h
    · exact .inl (by rw [hz]; exact h)
    · exact absurd h.1 (by decide)
  · rw [SameIv, if_pos (.inl rfl)]; exact hz.symm

/-- C60_collision: the toy MAC only depends on the key, so two ciphertexts have the same tag. -/
example : Collision toyEnv "A128CBC-HS256" (List.replicate 32 1) [2] (List.replicate 16 3) [4] [2]
    (List.replicate 16 3) [5] :=
  have h (c : UInt8) : Authentic toyEnv "A128CBC-HS256" (List.replicate 32 1) [2] (List.replicate 16 3) [c]
      (List.replicate 16 1) :=
    .inr ⟨.inl rfl, rfl, by decide, 16, .sha256, by decide, rfl⟩
  C60_collision (h 4) (h 5) (by rw [SameIv, if_neg (by decide)]) (by rintro ⟨-, -, h⟩; exact absurd h (by decide))

/-- C61_mismatch. -/
example (rnd : JweRnd) (keys : List Key) : Jwe.decrypt toyEnv {} rnd (exJweToken exEk [1] [2] [3]) keys (.str "RSA-OAEP") =
    (.error .wrongEncryptionAlgorithm, {}) :=
  C61_mismatch (.inl ⟨exToken_ne _ _ _ _, rfl⟩) (jweParts_unpack (exJweParts _ _ _ _)).choose_spec rfl rfl
    (by decide) (by decide)

end Verif
