import Verif.Props.JweOpen
import Verif.Props.JweRsa
import Verif.Props.JweSym
/-
C111: encrypted tokens made by other implementations.
-/

namespace Verif
open Spec

/-! ### Content decryption, exactly -/

theorem trim_of {x pt : Bytes} (h : Trimmed x pt) : pkcs5trim x = .ok pt := by
  obtain ⟨c, hc, h16, h⟩ := h
  unfold pkcs5trim
  rw [hc]
  simp only
  rw [if_neg (by omega)]
  rcases h with ⟨rfl, rfl⟩ | ⟨h0, r, rfl, hr⟩
  · rfl
  · rw [if_neg (fun e => h0 (UInt8.toNat_inj.mp (e.trans UInt8.toNat_zero.symm))), List.length_append]
    rcases hr with hr | ⟨rfl, hr⟩
    · rw [show pt.length + r.length - c.toNat = pt.length by omega, List.take_left]
    · rw [List.nil_append, List.length_nil, show 0 + r.length - c.toNat = 0 by omega, List.take_zero]

theorem packQ_len {n : Nat} (h : n < 2 ^ 61) : packQ (8 * n) = .ok (natToBytesW 8 (8 * n)) := by
  unfold packQ
  rw [if_pos (by omega)]

theorem encName_cases {s : String} {n i : Nat} (h : EncName s n i) :
    (i = 12 ∧ ((s = "A128GCM" ∧ n = 16) ∨ (s = "A192GCM" ∧ n = 24) ∨ (s = "A256GCM" ∧ n = 32))) ∨
    (i = 16 ∧ ((s = "A128CBC-HS256" ∧ n = 32) ∨ (s = "A192CBC-HS384" ∧ n = 48) ∨ (s = "A256CBC-HS512" ∧ n = 64))) := by
  cases h <;> simp

/-- **C111.** Content decryption returns `m` exactly if the tag belongs to header, initialization vector and
ciphertext and `m` is the content of the ciphertext. -/
theorem C111_exact {E : Env} (hC : E.C.Lawful) {enc : String} {key ct aad iv tag m : Bytes} :
    jweDecrypt E (.str enc) key ct aad iv tag = .ok m ↔
      Authentic E enc key aad iv ct tag ∧ Opened E.C enc key iv ct m := by
  constructor
  · intro h
    obtain ⟨s, hs, ha⟩ := jweDecrypt_authentic hC h
    cases hs
    exact ⟨ha, jweDecrypt_opened hC h⟩
  rintro ⟨ha, ho⟩
  rcases ha with ⟨hn, hiv, hl, K, hK, hKl, ht⟩ | ⟨hn, hiv, hal, s, a, hp, ht⟩
  · have hg : isGcmEnc (.str enc) = true := by rcases hn with rfl | rfl | rfl <;> decide
    have ho' : bytesToNat key < 2 ^ 256 ∧ m.length = ct.length ∧ ∀ i < ct.length, m[i]? =
        some (ct.getD i 0 ^^^ keyStream (E.C.enc (gcmKey key)) (natToBytesW 12 (bytesToNat iv)) i) := by
      rcases ho with ⟨n, -, h1, -, h2, h3⟩ | ⟨n, hx, -⟩
      · exact ⟨h1, h2, h3⟩
      · have := encName_cases hx
        rcases hn with rfl | rfl | rfl <;> exact absurd this (by simp)
    obtain ⟨h1, h2, h3⟩ := ho'
    obtain ⟨g, hgn⟩ := (C47_accepts hC key).1 h1
    obtain ⟨hr, -⟩ := gcm_new_reachable hgn
    rw [gcmKey_eq _ h1] at hr
    have hKe : K = gcmKey key := by
      have hb : bytesToNat key < 256 ^ (if bytesToNat key < 2 ^ 128 then 16 else 32) := by
        split
        · rename_i hx; exact lt_of_lt_of_eq hx (by norm_num)
        · exact lt_of_lt_of_eq h1 (by norm_num)
      apply bytesToNat_inj
      · unfold gcmKey; rw [natToBytesW_length, hKl]
      · unfold gcmKey; rw [bytesToNat_natToBytesW, hK, Nat.mod_eq_of_lt hb]
    subst hKe
    unfold jweDecrypt
    simp only [hg, if_true, Bind.bind, Except.bind, hgn]
    rw [(C45_decrypt hC hr _ _ _ _ hl).1 ⟨hiv, ht⟩]
    congr 1
    apply List.ext_getElem?
    intro i
    by_cases hi : i < ct.length
    · rw [h3 i hi, List.getElem?_map, List.getElem?_range hi]
      rfl
    · rw [List.getElem?_eq_none (by simpa using hi), List.getElem?_eq_none (by omega)]
  · have hg : isGcmEnc (.str enc) = false ∧ isCbcEnc (.str enc) = true := by
      rcases hn with rfl | rfl | rfl <;> decide
    rcases ho with ⟨n, hx, -⟩ | ⟨n, -, -, s', a', x, hp', hx, hcbc, htr⟩
    · have := encName_cases hx
      rcases hn with rfl | rfl | rfl <;> exact absurd this (by simp)
    obtain ⟨hgk, hke, -⟩ := getKeys_ok hp rfl hiv
    obtain ⟨hgk', -, -⟩ := getKeys_ok hp' rfl hiv
    rw [hgk] at hgk'
    have hss : s = s' := by
      have := Except.ok.inj hgk'
      exact (Prod.mk.inj (Prod.mk.inj (Prod.mk.inj this).2).2).1
    subst hss
    have hcl : ct.length % 16 = 0 := by rw [hcbc.1]; exact hx
    have hdec : cbcDecrypt E.C (key.drop s) iv ct = .ok x := by
      have : ∃ y, cbcDecrypt E.C (key.drop s) iv ct = .ok y := by
        unfold cbcDecrypt
        simp only [aesNew, hke, if_true, Bind.bind, Except.bind, hiv, ne_eq, not_true_eq_false, if_false, hcl]
        exact ⟨_, rfl⟩
      obtain ⟨y, hy⟩ := this
      obtain ⟨e1, e2⟩ := isCbc_of_decrypt hC hy
      rw [hy, isCbc_unique hC hke hiv e2 e1 hcbc]
    unfold jweDecrypt
    simp only [hg.1, hg.2, Bool.false_eq_true, if_false, if_true]
    unfold aesCbcHmacDecrypt cbcHmacTag
    simp only [hgk, Bind.bind, Except.bind, packQ_len hal]
    have hmi : macInput aad iv ct = aad ++ iv ++ ct ++ natToBytesW 8 (8 * aad.length) := rfl
    rw [if_pos (by rw [ht, hmi]), hdec]
    exact trim_of htr

/-! ### Content encryption by the standards -/

/-- `ct` and `tag` are the content encryption of `pt` as the standards say: for A*GCM (RFC 7518 section 5.3) the
AES key is the content key itself, the initialization vector has 12 bytes, the tag 16; for the others
section 5.2. -/
inductive Spec.RfcContent (E : Env) : String → Bytes → Bytes → Bytes → Bytes → Bytes → Bytes → Prop
  | gcm {enc n key iv aad pt ct tag} : EncName enc n 12 → key.length = n → iv.length = 12 → tag.length = 16 →
      ct.length = pt.length → ct.length ≤ 16 * 2 ^ 32 →
      (∀ i < pt.length, ct[i]? = some (pt.getD i 0 ^^^ keyStream (E.C.enc key) iv i)) →
      IsGcmTag (E.C.enc key) iv aad ct (bytesToNat tag) → RfcContent E enc key iv aad pt ct tag
  | cbc {enc n key iv aad pt ct tag a} : EncName enc n 16 → key.length = n → iv.length = 16 → aad.length < 2 ^ 61 →
      (n, n / 2, a) ∈ cbcHmacParams → IsCbc (E.C.enc (key.drop (n / 2))) iv (padded pt) ct →
      tag = (E.H.hmac a (key.take (n / 2)) (macInput aad iv ct)).take (n / 2) → RfcContent E enc key iv aad pt ct tag

/-- The content keys for which the library uses AES with the right key: all for the CBC methods and A128GCM,
those with a nonzero byte among the first sixteen for A256GCM, none for A192GCM. -/
def Spec.KeyTaken (enc : String) (key : Bytes) : Prop :=
  enc = "A128GCM" ∨ (enc = "A256GCM" ∧ 2 ^ 128 ≤ bytesToNat key) ∨
    enc = "A128CBC-HS256" ∨ enc = "A192CBC-HS384" ∨ enc = "A256CBC-HS512"

theorem gcmKey_self {key : Bytes} (h : key.length = 16 ∨ (key.length = 32 ∧ 2 ^ 128 ≤ bytesToNat key)) :
    gcmKey key = key ∧ bytesToNat key < 2 ^ 256 := by
  have hb := bytesToNat_lt key
  unfold gcmKey
  rcases h with h | ⟨h, hk⟩
  · rw [h] at hb
    have h1 : bytesToNat key < 2 ^ 128 := lt_of_lt_of_eq hb (by norm_num)
    exact ⟨by rw [if_pos h1]; exact natToBytesW_bytesToNat' h, lt_of_lt_of_le h1 (by norm_num)⟩
  · rw [h] at hb
    exact ⟨by rw [if_neg (by omega)]; exact natToBytesW_bytesToNat' h, lt_of_lt_of_eq hb (by norm_num)⟩

theorem padded_trimmed (pt : Bytes) : Trimmed (padded pt) pt := by
  have h := C38_roundtrip pt
  unfold pkcs5pad at h
  simp only at h
  rw [if_neg (by omega)] at h
  exact trimmed_of h

/-- **C111.** Content encrypted by the standards is decrypted, unless the library takes the wrong AES key. -/
theorem C111_content {E : Env} (hC : E.C.Lawful) {enc : String} {key iv aad pt ct tag : Bytes}
    (h : RfcContent E enc key iv aad pt ct tag) (hk : KeyTaken enc key) :
    jweDecrypt E (.str enc) key ct aad iv tag = .ok pt := by
  rw [C111_exact hC]
  cases h with
  | gcm he hkl hiv htl hcl hl hct ht =>
    have hkey : key.length = 16 ∨ (key.length = 32 ∧ 2 ^ 128 ≤ bytesToNat key) := by
      have hc := encName_cases he
      rcases hk with rfl | ⟨rfl, hk⟩ | rfl | rfl | rfl <;> simp at hc
      · exact .inl (hkl.trans hc)
      · exact .inr ⟨hkl.trans hc, hk⟩
    obtain ⟨hgk, h256⟩ := gcmKey_self hkey
    have hb := bytesToNat_lt iv
    rw [hiv] at hb
    have hiv96 : bytesToNat iv < 2 ^ 96 := lt_of_lt_of_eq hb (by norm_num)
    have hivs := natToBytesW_bytesToNat' hiv
    refine ⟨.inl ⟨?_, hiv96, hl, key, rfl, ?_, by rw [hivs]; exact ht⟩, .inl ⟨_, he, h256, hiv96, hcl.symm, ?_⟩⟩
    · cases he <;> simp
    · have hb := bytesToNat_lt key
      rcases hkey with h | ⟨h, hk⟩
      · rw [h] at hb
        rw [if_pos (lt_of_lt_of_eq hb (by norm_num)), h]
      · rw [if_neg (by omega), h]
    · intro i hi
      rw [hgk, hivs, List.getD_eq_getElem?_getD, hct i (by omega), List.getD_eq_getElem?_getD]
      simp [List.getElem?_eq_getElem (show i < pt.length by omega), UInt8.xor_assoc]
  | cbc he hkl hiv hal hp hcbc ht =>
    subst hkl
    refine ⟨.inr ⟨by have := encName_cases he; simp at this; tauto, hiv, hal, _, _, hp, ht⟩,
      .inr ⟨_, he, hiv, _, _, padded pt, hp, ?_, hcbc, padded_trimmed pt⟩⟩
    unfold padded
    rw [List.length_append, List.length_replicate]
    omega

/-- **C111.** With A192GCM the library uses AES with a key of 16 or 32 bytes: a token is decrypted exactly if its tag
is that of this other key, and what comes out is decrypted with it. -/
theorem C111_192 {E : Env} (hC : E.C.Lawful) {key iv aad ct tag m : Bytes} (hk : key.length = 24) (hiv : iv.length = 12) :
    jweDecrypt E (.str "A192GCM") key ct aad iv tag = .ok m ↔
      ct.length ≤ 16 * 2 ^ 32 ∧ m.length = ct.length ∧
      IsGcmTag (E.C.enc (if bytesToNat key < 2 ^ 128 then key.drop 8 else List.replicate 8 0 ++ key)) iv aad ct
        (bytesToNat tag) ∧
      ∀ i < ct.length, m[i]? = some (ct.getD i 0 ^^^
        keyStream (E.C.enc (if bytesToNat key < 2 ^ 128 then key.drop 8 else List.replicate 8 0 ++ key)) iv i) := by
  have hb := bytesToNat_lt key
  rw [hk] at hb
  have h256 : bytesToNat key < 2 ^ 256 := lt_of_lt_of_le hb (by norm_num)
  obtain ⟨g, hgn⟩ := (C47_accepts hC key).1 h256
  obtain ⟨hr, -⟩ := gcm_new_reachable hgn
  have hm := C47_192 hC key g hk hgn
  rw [(hr.valid hC).2, gcmKey_eq _ h256] at hm
  have hb := bytesToNat_lt iv
  rw [hiv] at hb
  have hiv96 : bytesToNat iv < 2 ^ 96 := lt_of_lt_of_eq hb (by norm_num)
  have hivs := natToBytesW_bytesToNat' hiv
  obtain ⟨u1, u2, u3⟩ := C47_used_key hC key g hgn
  rw [(hr.valid hC).2, gcmKey_eq _ h256] at u1 u2 u3
  rw [C111_exact hC, ← hm]
  constructor
  · rintro ⟨ha, ho⟩
    rcases ha with ⟨-, -, hl, K, hK, hKl, ht⟩ | ⟨h, -⟩
    swap
    · exact absurd h (by decide)
    rcases ho with ⟨n, -, -, -, h2, h3⟩ | ⟨n, hx, -⟩
    swap
    · exact absurd (encName_cases hx) (by simp)
    have hKe : K = gcmKey key := by
      apply bytesToNat_inj
      · rw [hKl]
        split
        · rename_i h; rw [u1 h]
        · rename_i h; rw [u2 (by omega)]
      · rw [hK, u3]
    rw [hKe, hivs] at ht
    rw [hivs] at h3
    exact ⟨hl, h2, ht, h3⟩
  · rintro ⟨hl, h2, ht, h3⟩
    refine ⟨.inl ⟨by simp, hiv96, hl, gcmKey key, u3, ?_, by rw [hivs]; exact ht⟩,
      .inl ⟨_, .g192, h256, hiv96, h2, by rw [hivs]; exact h3⟩⟩
    split
    · rename_i h; exact u1 h
    · rename_i h; exact u2 (by omega)

/-! ### Tokens -/

/-- **C111.** A token made by another implementation for an RSA key: the header any JSON text with `alg`, `enc` and
perhaps `zip`, the second segment any encryption of a content key, the content encrypted by the standards. -/
theorem C111_rsa {E : Env} (hC : E.C.Lawful) {token s0 ek iv ct tag : Bytes} {h : PyDict}
    (hp : JweParts token s0 (.dict h) ek iv ct tag) {alg enc : String} {p : RsaPad}
    (halg : PyDict.get? h "alg" = some (.str alg)) (hm : MgmtName alg (.rsa p))
    (henc : PyDict.get? h "enc" = some (.str enc)) {o : Jwe} {rnd : JweRnd} {keys l : List Key} {wk : PyVal}
    {k : Key} {r : RsaKey} (hk : HoldsRsa k r) (heff : EffKeys o.toJwx keys l)
    (hsk : SignKid o.toJwx wk) (hf : FirstPicked (.rsa p) alg wk l k) {c pt m : Bytes}
    (hek : RsaOpens E.R alg r ek c) (hsent : p = .pkcs1 → rnd.sentinel 0 ≠ c)
    (hct : RfcContent E enc c iv s0 pt ct tag) (hkt : KeyTaken enc c) (hz : Unzipped E h pt m) :
    (o.decrypt E rnd token keys).1 = .ok m := by
  obtain ⟨hb, hun⟩ := jweParts_unpack hp
  obtain ⟨rest, hd1, hd2⟩ := decrypt_single (E := E) (rnd := rnd) hun rfl halg hm heff hsk hf []
  have hencs : enc ∈ jweSupportedEnc := by
    cases hct with
    | gcm he => cases he <;> decide
    | cbc he => cases he <;> decide
  have hdec : rsaEncrypterDecrypt E false (rnd.sentinel 0) ek (.obj (.rsa r)) p = .ok c := by
    unfold rsaEncrypterDecrypt
    simp only [rsaKeyArg, Bind.bind, Except.bind]
    have hpad := rsaPadOf_name hm
    rcases hek with ⟨rfl, hx⟩ | ⟨rfl, hx⟩ | ⟨rfl, hx⟩ <;> cases hpad
    · have hne : ¬ c = rnd.sentinel 0 := fun e => hsent rfl e.symm
      simp [hx, rsaCheckText, hne]
    · exact hx
    · exact hx
  rw [hd2, hd1]
  simp only [decryptTry, if_true, decryptLoop, holdsRsa_key hk, decryptBy]
  rw [rsaDecrypt_parts rfl halg hm henc hencs]
  have hzz : (if PyDict.get? h "zip" = some (.str "DEF") then E.Z.decompress pt else .ok pt) = .ok m := by
    rcases hz with ⟨h1, rfl⟩ | ⟨h1, h2⟩
    · rw [if_neg h1]
    · rw [if_pos h1, h2]
  simp only [ne_eq, not_true_eq_false, if_false, Option.getD_some, hdec, Except.bind, C111_content hC hct hkt, hzz,
    Except.map]

/-- **C111.** A token made by another implementation for a shared secret, the content key wrapped (RFC 3394) under the
left part of the SHA-256 value of the secret (OpenID Connect Core section 10.2; RFC 7518 section 4.4 would take the
secret itself, see C68). -/
theorem C111_wrap {E : Env} (hC : E.C.Lawful) (hH : E.H.Lawful) {token s0 ek iv ct tag : Bytes} {h : PyDict}
    (hp : JweParts token s0 (.dict h) ek iv ct tag) {alg enc : String} {n : Nat}
    (halg : PyDict.get? h "alg" = some (.str alg)) (hm : MgmtName alg (.wrap n))
    (henc : PyDict.get? h "enc" = some (.str enc)) {o : Jwe} {rnd : JweRnd} {keys l : List Key} {wk : PyVal}
    {k : Key} {secret : Bytes} (hk : SharedKey k secret) (heff : EffKeys o.toJwx keys l)
    (hsk : SignKid o.toJwx wk) (hf : FirstPicked (.wrap n) alg wk l k) {c pt : Bytes}
    (hek : ek = rfc3394Wrap E.C ((E.H.hash .sha256 secret).take n) 0xA6A6A6A6A6A6A6A6 (blocks8 c))
    (hct : RfcContent E enc c iv s0 pt ct tag) (hkt : KeyTaken enc c) :
    (o.decrypt E rnd token keys).1 = .ok pt := by
  obtain ⟨-, hok⟩ := shared_encryptionKey (E := E) hH hk hm false
  have hl : c.length % 8 = 0 ∧ c.length < 2 ^ 61 := by
    cases hct with
    | gcm he hkl => rw [hkl]; cases he <;> decide
    | cbc he hkl => rw [hkl]; cases he <;> decide
  obtain ⟨w, e1, -, e2⟩ := C35_roundtrip E.C hC _ c 0xa6a6a6a6a6a6a6a6 hok (by norm_num) hl.1 hl.2
  rw [C37_rfc3394 E.C hC _ c _ hok (by norm_num) hl.2] at e1
  cases e1
  subst hek
  exact sym_decrypt_token hH hm hp halg henc hk heff hsk hf e2 (C111_content hC hct hkt)

/-! ### Examples -/

/-- Such content encryptions exist for every message. -/
theorem rfcContent_exists {E : Env} (hC : E.C.Lawful) {enc : String} {n i : Nat} (he : EncName enc n i)
    {key iv : Bytes} (hkl : key.length = n) (hil : iv.length = i) (hkt : KeyTaken enc key) {pt aad : Bytes}
    (hl : pt.length ≤ 16 * 2 ^ 32) (hal : aad.length < 2 ^ 61) : ∃ ct tag, RfcContent E enc key iv aad pt ct tag := by
  have hc := encName_cases he
  rcases hc with ⟨rfl, hc⟩ | ⟨rfl, hc⟩
  · have hkey : key.length = 16 ∨ (key.length = 32 ∧ 2 ^ 128 ≤ bytesToNat key) := by
      rcases hkt with rfl | ⟨rfl, hk⟩ | rfl | rfl | rfl <;> simp at hc
      · exact .inl (hkl.trans hc)
      · exact .inr ⟨hkl.trans hc, hk⟩
    obtain ⟨hgk, h256⟩ := gcmKey_self hkey
    obtain ⟨g, hgn⟩ := (C47_accepts hC key).1 h256
    obtain ⟨hr, hp⟩ := gcm_new_reachable hgn
    rw [gcmKey_eq _ h256, hgk] at hr
    have hb := bytesToNat_lt iv
    rw [hil] at hb
    obtain ⟨ct, tag, -, h2, h3, h4⟩ := C44_encrypt hC hr (bytesToNat iv) (lt_of_lt_of_eq hb (by norm_num))
      (by rw [hp]; simp) pt aad hl
    rw [natToBytesW_bytesToNat' hil] at h3 h4
    refine ⟨ct, natToBytesW 16 tag, .gcm he hkl hil (natToBytesW_length _ _) h2 (by omega) h3 ?_⟩
    rw [bytesToNat_natToBytesW, Nat.mod_eq_of_lt (lt_of_lt_of_eq h4.1 (by norm_num))]
    exact h4
  · have hp : ∃ a, (n, n / 2, a) ∈ cbcHmacParams := by
      rcases hc with ⟨-, rfl⟩ | ⟨-, rfl⟩ | ⟨-, rfl⟩
      · exact ⟨.sha256, by decide⟩
      · exact ⟨.sha384, by decide⟩
      · exact ⟨.sha512, by decide⟩
    obtain ⟨a, hp⟩ := hp
    obtain ⟨-, hke, -⟩ := getKeys_ok hp hkl hil
    have hpl : (padded pt).length % 16 = 0 := by
      unfold padded
      rw [List.length_append, List.length_replicate]
      omega
    have : ∃ ct, cbcEncrypt E.C (key.drop (n / 2)) iv (padded pt) = .ok ct := by
      unfold cbcEncrypt
      simp only [aesNew, hke, if_true, Bind.bind, Except.bind, hil, ne_eq, not_true_eq_false, if_false, hpl]
      exact ⟨_, rfl⟩
    obtain ⟨ct, hct⟩ := this
    exact ⟨ct, _, .cbc he hkl hil hal hp (isCbc_of_encrypt hC hke hct) rfl⟩

/-- A header with spaces, unknown members and another order than the library's. -/
def exForeignHead (alg enc : String) : String :=
  "{ \"enc\": \"" ++ enc ++ "\",\n  \"exp\": [1, {\"a\": null}],\n  \"alg\": \"" ++ alg ++ "\" }"

@[inherit_doc exForeignHead]
def exForeignDict (alg enc : String) : PyDict :=
  [("enc", .str enc), ("exp", .list [.int 1, .dict [("a", .none)]]), ("alg", .str alg)]

@[inherit_doc exForeignHead]
def exForeign (alg enc : String) (ek iv ct tag : Bytes) : Bytes :=
  b64e (utf8Encode (exForeignHead alg enc)) ++ 46 :: b64e ek ++ 46 :: b64e iv ++ 46 :: b64e ct ++ 46 :: b64e tag

/-- A shared secret, A128KW, A256GCM. -/
example : ∃ ek iv ct tag, (Jwe.decrypt toyEnv {} exRnd (exForeign "A128KW" "A256GCM" ek iv ct tag) [exShared]).1 =
    .ok (ascii "hello") := by
  obtain ⟨ct, tag, h⟩ := rfcContent_exists (E := toyEnv) toyCipher_lawful .g256 (key := List.replicate 32 7)
    (iv := List.replicate 12 9) rfl rfl (.inr (.inl ⟨rfl, by decide +kernel⟩)) (pt := ascii "hello")
    (aad := b64e (utf8Encode (exForeignHead "A128KW" "A256GCM"))) (by decide) (by decide +kernel)
  exact ⟨_, _, ct, tag, C111_wrap toyCipher_lawful toyHashes_lawful (h := exForeignDict "A128KW" "A256GCM")
    ⟨rfl, exForeignHead "A128KW" "A256GCM", rfl, by decide +kernel⟩ rfl .a128 rfl exShared_ok (.inl ⟨by simp, rfl⟩)
    (.inr ⟨rfl, .inl ⟨rfl, rfl⟩⟩) ⟨[], [], rfl, exShared_picked, by simp⟩ rfl h (.inr (.inl ⟨rfl, by decide +kernel⟩))⟩

/-- An RSA key, RSA1_5, A192CBC-HS384. -/
example : ∃ ek iv ct tag, (Jwe.decrypt toyEnv {} exRnd (exForeign "RSA1_5" "A192CBC-HS384" ek iv ct tag) [exRsaPriv]).1 =
    .ok (ascii "hello") := by
  obtain ⟨ct, tag, h⟩ := rfcContent_exists (E := toyEnv) toyCipher_lawful .c192 (key := List.replicate 48 7)
    (iv := List.replicate 16 9) rfl rfl (.inr (.inr (.inr (.inl rfl)))) (pt := ascii "hello")
    (aad := b64e (utf8Encode (exForeignHead "RSA1_5" "A192CBC-HS384"))) (by decide) (by decide +kernel)
  exact ⟨3 :: List.replicate 48 7, _, ct, tag, C111_rsa toyCipher_lawful (h := exForeignDict "RSA1_5" "A192CBC-HS384")
    ⟨rfl, exForeignHead "RSA1_5" "A192CBC-HS384", rfl, by decide +kernel⟩ rfl .rsa15 rfl ⟨⟨_, rfl⟩, rfl⟩ (.inl ⟨by simp, rfl⟩)
    (.inr ⟨rfl, .inl ⟨rfl, rfl⟩⟩) ⟨[], [], rfl, ⟨.inr (.inl rfl), by decide, by decide, by decide⟩, by simp⟩
    (.inl ⟨rfl, rfl⟩) (fun _ => by decide +kernel) h (.inr (.inr (.inr (.inl rfl)))) (.inl ⟨by decide, rfl⟩)⟩

end Verif
