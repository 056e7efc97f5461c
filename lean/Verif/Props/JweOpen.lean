import Verif.Props.JweState
/-
C93: what `JWE.decrypt` returns.
-/

namespace Verif
open Spec

/-- The last byte says how many bytes are dropped, at most 16; if it is zero everything is dropped. -/
def Spec.Trimmed (x pt : Bytes) : Prop :=
  ∃ c, x.getLast? = some c ∧ c.toNat ≤ 16 ∧
    ((c = 0 ∧ pt = []) ∨ (c ≠ 0 ∧ ∃ r, x = pt ++ r ∧ (r.length = c.toNat ∨ (pt = [] ∧ r.length < c.toNat))))

/-- `pt` is the content of `ct` under the content key: for GCM the xor with the key stream, for CBC the
plaintext of the chaining without its padding. -/
def Spec.Opened (C : BlockCipher) (enc : String) (key iv ct pt : Bytes) : Prop :=
  (∃ n, EncName enc n 12 ∧ bytesToNat key < 2 ^ 256 ∧ bytesToNat iv < 2 ^ 96 ∧ pt.length = ct.length ∧
    ∀ i < ct.length, pt[i]? =
      some (ct.getD i 0 ^^^ keyStream (C.enc (gcmKey key)) (natToBytesW 12 (bytesToNat iv)) i)) ∨
  (∃ n, EncName enc n 16 ∧ iv.length = 16 ∧ ∃ s a x, (key.length, s, a) ∈ cbcHmacParams ∧
    x.length % 16 = 0 ∧ IsCbc (C.enc (key.drop s)) iv x ct ∧ Trimmed x pt)

theorem trimmed_of {x pt : Bytes} (h : pkcs5trim x = .ok pt) : Trimmed x pt := by
  unfold pkcs5trim at h
  split at h
  · cases h
  rename_i c hc
  split at h
  · cases h
  rename_i h16
  refine ⟨c, hc, by omega, ?_⟩
  split at h
  · rename_i h0
    cases h
    exact .inl ⟨UInt8.toNat_inj.mp h0, rfl⟩
  · rename_i h0
    cases h
    refine .inr ⟨by rintro rfl; exact h0 rfl, x.drop (x.length - c.toNat), (List.take_append_drop _ _).symm, ?_⟩
    rw [List.length_drop]
    by_cases hl : c.toNat ≤ x.length
    · exact .inl (by omega)
    · refine .inr ⟨?_, by omega⟩
      rw [show x.length - c.toNat = 0 by omega, List.take_zero]

theorem cbcDecBlocks_inv {C : BlockCipher} (hC : C.Lawful) {key : Bytes} (hk : aesKeyOk key) :
    ∀ (cs : List Bytes) (iv : Bytes), iv.length = 16 → (∀ x ∈ cs, x.length = 16) →
      cbcEncBlocks C key iv (cbcDecBlocks C key iv cs) = cs ∧
      (∀ x ∈ cbcDecBlocks C key iv cs, x.length = 16) := by
  intro cs
  induction cs with
  | nil => intros; simp [cbcEncBlocks, cbcDecBlocks]
  | cons c cs ih =>
    intro iv hiv hcs
    have hc := hcs c (by simp)
    have hd := hC.dec_length key c hk hc
    obtain ⟨h1, h2⟩ := ih c hc (fun x hx => hcs x (by simp [hx]))
    have he : C.enc key (xorBytes (xorBytes (C.dec key c) iv) iv) = c := by
      unfold xorBytes
      rw [zipWith_xor_twice _ iv (by omega), hC.enc_dec key c hk hc]
    refine ⟨?_, ?_⟩
    · simp only [cbcEncBlocks, cbcDecBlocks, he, h1]
    · intro x hx
      simp only [cbcDecBlocks, List.mem_cons] at hx
      rcases hx with rfl | hx
      · rw [xorBytes_length]; omega
      · exact h2 x hx

theorem isCbc_of_decrypt {C : BlockCipher} (hC : C.Lawful) {key iv data x : Bytes}
    (h : cbcDecrypt C key iv data = .ok x) : IsCbc (C.enc key) iv x data ∧ x.length % 16 = 0 := by
  have hk : aesKeyOk key = true := by
    unfold cbcDecrypt aesNew at h
    by_contra hk
    rw [if_neg hk] at h
    cases h
  unfold cbcDecrypt at h
  simp only [aesNew, hk, if_true, Bind.bind, Except.bind] at h
  split at h
  · cases h
  rename_i hiv
  split at h
  · cases h
  rename_i hd
  cases h
  have hiv : iv.length = 16 := by omega
  obtain ⟨b1, b2⟩ := blocks16_spec data (by omega)
  obtain ⟨c1, c2⟩ := cbcDecBlocks_inv hC hk (blocks16 data) iv hiv b2
  obtain ⟨f1, f2⟩ := blocks16_flatten _ c2
  refine ⟨isCbc_of_encrypt hC hk ?_, by rw [f2]; omega⟩
  unfold cbcEncrypt
  simp only [aesNew, hk, if_true, Bind.bind, Except.bind, hiv, ne_eq, not_true_eq_false, if_false, f2]
  rw [if_neg (by omega), f1, c1, b1]

theorem jweDecrypt_opened {E : Env} (hC : E.C.Lawful) {enc : String} {ckey ct aad iv tag m : Bytes}
    (h : jweDecrypt E (.str enc) ckey ct aad iv tag = .ok m) : Opened E.C enc ckey iv ct m := by
  unfold jweDecrypt at h
  split at h
  · rename_i hg
    obtain ⟨s, hs', hs⟩ := strIn_str hg
    cases hs'
    simp only [Bind.bind] at h
    obtain ⟨g, hgn, hd⟩ := bind_ok_iff.mp h
    obtain ⟨hr, hp⟩ := gcm_new_reachable hgn
    obtain ⟨hiv, ht⟩ := gcm_decrypt_tag hC hr hd
    have hl := gcm_decrypt_short hd
    rw [(C45_decrypt hC hr _ _ _ _ hl).1 ⟨hiv, ht⟩] at hd
    cases hd
    have hkl : bytesToNat ckey < 2 ^ 256 := by
      by_contra hc
      rw [(C47_accepts hC ckey).2 (by omega)] at hgn
      cases hgn
    have hs' : ∃ n, EncName enc n 12 := by
      simp only [List.mem_cons, List.not_mem_nil, or_false] at hs
      rcases hs with rfl | rfl | rfl
      · exact ⟨_, .g192⟩
      · exact ⟨_, .g128⟩
      · exact ⟨_, .g256⟩
    obtain ⟨n, hn⟩ := hs'
    rw [gcmKey_eq _ hkl]
    refine .inl ⟨n, hn, hkl, hiv, by simp, ?_⟩
    intro i hi
    rw [List.getElem?_map, List.getElem?_range hi]
    rfl
  · split at h
    · rename_i hg
      obtain ⟨s, hs', hs⟩ := strIn_str hg
      cases hs'
      obtain ⟨s', a, h1, h2, h3, h4⟩ := C40_tag _ _ _ _ _ _ _ _ h
      have hs' : ∃ n, EncName enc n 16 := by
        simp only [List.mem_cons, List.not_mem_nil, or_false] at hs
        rcases hs with rfl | rfl | rfl
        · exact ⟨_, .c128⟩
        · exact ⟨_, .c192⟩
        · exact ⟨_, .c256⟩
      obtain ⟨n, hn⟩ := hs'
      obtain ⟨hgk, hke, -⟩ := getKeys_ok h1 rfl h2
      unfold aesCbcHmacDecrypt cbcHmacTag at h
      simp only [hgk, Bind.bind, Except.bind] at h
      obtain ⟨cand, -, h5⟩ := bind_ok_iff.mp h
      split at h5
      swap
      · cases h5
      obtain ⟨x, hx, h6⟩ := bind_ok_iff.mp h5
      obtain ⟨e1, e2⟩ := isCbc_of_decrypt hC hx
      exact .inr ⟨n, hn, h2, s', a, x, h1, e2, e1, trimmed_of h6⟩
    · cases h

/-- **C93.** What `decrypt` returns: the token's ciphertext, opened with the content key that belongs to
the token and a key of the receiver, and decompressed for an RSA token whose header says so. -/
theorem C93_message {E : Env} (hC : E.C.Lawful) {o : Jwe} {rnd : JweRnd} {token t : Bytes}
    {keys : List Key} {alg : PyVal} {cek m : Bytes} (ht : Received o token t)
    (h : (o.decrypt E rnd token keys alg cek).1 = .ok m) :
    ∃ hd a enc s0 ek iv ct tag extra ckey pt, ReadAs t hd s0 ek iv ct tag extra ∧
      PyDict.get? hd "alg" = some (.str a) ∧ PyDict.get? hd "enc" = some (.str enc) ∧
      KeyFrom E (Candidate o keys) hd a enc cek ek ckey ∧ Authentic E enc ckey s0 iv ct tag ∧
      Opened E.C enc ckey iv ct pt ∧ Delivered E hd a pt m := by
  obtain ⟨hd, a, enc, s0, ek, iv, ct, tag, extra, ckey, pt, h1, h2, h3, h4, h5, h6, -⟩ := decrypt_inv hC ht h
  obtain ⟨s, he, hau⟩ := jweDecrypt_authentic hC h5
  cases he
  exact ⟨hd, a, enc, s0, ek, iv, ct, tag, extra, ckey, pt, h1, h2, h3, h4, hau, jweDecrypt_opened hC h5, h6⟩

theorem trimmed_padded {p q : Bytes} (h : Trimmed (padded p) q) : q = p := by
  have hr := C38_roundtrip p
  unfold pkcs5pad at hr
  simp only at hr
  rw [if_neg (by omega)] at hr
  change pkcs5trim (padded p) = _ at hr
  obtain ⟨c, hc, h16, hh⟩ := h
  unfold pkcs5trim at hr
  rw [hc] at hr
  simp only at hr
  rw [if_neg (by omega)] at hr
  rcases hh with ⟨rfl, rfl⟩ | ⟨h0, r, hx, hl⟩
  · cases hr; rfl
  · rw [if_neg (by intro e; exact h0 (UInt8.toNat_inj.mp e))] at hr
    rw [hx, List.length_append] at hr
    cases hr
    rcases hl with hl | ⟨rfl, hl⟩
    · rw [hl, Nat.add_sub_cancel, List.take_left]
    · rw [show ([] : Bytes).length + r.length - c.toNat = 0 by simp; omega, List.take_zero]

theorem xorBytes_cancel {a b k : Bytes} (ha : a.length = 16) (hb : b.length = 16) (hk : k.length = 16)
    (h : xorBytes a k = xorBytes b k) : a = b := by
  have e1 := zipWith_xor_twice a k (by omega)
  have e2 := zipWith_xor_twice b k (by omega)
  unfold xorBytes at h
  rw [← e1, ← e2, h]

theorem isCbc_unique {C : BlockCipher} (hC : C.Lawful) {key iv x y ct : Bytes} (hk : aesKeyOk key = true)
    (hiv : iv.length = 16) (hx : x.length % 16 = 0)
    (h : IsCbc (C.enc key) iv x ct) (h' : IsCbc (C.enc key) iv y ct) : x = y := by
  obtain ⟨l1, e1⟩ := h
  obtain ⟨l2, e2⟩ := h'
  have hb : ∀ j, 16 * j + 16 ≤ x.length → (x.drop (16 * j)).take 16 = (y.drop (16 * j)).take 16 := by
    intro j hj
    have a1 := e1 j hj
    have a2 := e2 j (by omega)
    have lx : ((x.drop (16 * j)).take 16).length = 16 := by rw [List.length_take, List.length_drop]; omega
    have ly : ((y.drop (16 * j)).take 16).length = 16 := by rw [List.length_take, List.length_drop]; omega
    have lp : (((iv ++ ct).drop (16 * j)).take 16).length = 16 := by
      rw [List.length_take, List.length_drop, List.length_append]; omega
    refine xorBytes_cancel lx ly lp ?_
    rw [a1] at a2
    have := congrArg (C.dec key) a2
    rwa [hC.dec_enc key _ hk (by rw [xorBytes_length]; omega),
      hC.dec_enc key _ hk (by rw [xorBytes_length]; omega)] at this
  apply List.ext_getElem?
  intro i
  by_cases hi : i < x.length
  · have hj := hb (i / 16) (by omega)
    have := congrArg (fun l => l[i % 16]?) hj
    simp only [List.getElem?_take, List.getElem?_drop] at this
    rw [if_pos (by omega), if_pos (by omega), Nat.div_add_mod] at this
    exact this
  · rw [List.getElem?_eq_none (by omega), List.getElem?_eq_none (by omega)]

/-- **C93.** Opening what was sealed gives back what was sealed, and nothing else. -/
theorem C93_sealed {E : Env} (hC : E.C.Lawful) {enc : String} {key iv aad p q ct tag : Bytes}
    (h : Sealed E enc key iv aad p ct tag) (h' : Opened E.C enc key iv ct q) : q = p := by
  rcases h with ⟨n, hn, hs⟩ | ⟨n, hn, hs⟩ <;> rcases h' with ⟨n', hn', ho⟩ | ⟨n', hn', ho⟩
  · obtain ⟨-, -, l1, e1, -⟩ := hs
    obtain ⟨-, -, l2, e2⟩ := ho
    apply List.ext_getElem?
    intro i
    by_cases hi : i < p.length
    · have a1 := e1 i hi
      have a2 := e2 i (by omega)
      rw [a2, List.getD_eq_getElem?_getD, a1, List.getElem?_eq_getElem hi]
      simp [hi, UInt8.xor_assoc]
    · rw [List.getElem?_eq_none (by omega), List.getElem?_eq_none (by omega)]
  · have := (encName_lookup hn).1.symm.trans (encName_lookup hn').1
    cases this
  · have := (encName_lookup hn).1.symm.trans (encName_lookup hn').1
    cases this
  · obtain ⟨-, s, a, hp, e1, -⟩ := hs
    obtain ⟨hiv, s', a', x, hp', hx, e2, ht⟩ := ho
    have hss : s = s' := by
      simp only [cbcHmacParams, List.mem_cons, Prod.mk.injEq, List.not_mem_nil, or_false] at hp hp'
      omega
    subst hss
    have hke := (getKeys_ok hp rfl hiv).2.1
    have := isCbc_unique hC hke hiv hx e2 e1
    subst this
    exact trimmed_padded ht

/-- **C92.** After a decryption the object stores the content key of an RSA token under `cek`, and
nothing for the other tokens. -/
theorem C92_stores {E : Env} (hC : E.C.Lawful) {o : Jwe} {rnd : JweRnd} {token t : Bytes}
    {keys : List Key} {alg : PyVal} {cek m : Bytes} (ht : Received o token t)
    (h : (o.decrypt E rnd token keys alg cek).1 = .ok m) :
    ∃ hd a enc s0 ek iv ct tag extra ckey, ReadAs t hd s0 ek iv ct tag extra ∧
      PyDict.get? hd "alg" = some (.str a) ∧ PyDict.get? hd "enc" = some (.str enc) ∧
      KeyFrom E (Candidate o keys) hd a enc cek ek ckey ∧ Authentic E enc ckey s0 iv ct tag ∧
      PyDict.get? (o.decrypt E rnd token keys alg cek).2.dict "cek" =
        some (if a = "RSA1_5" ∨ a = "RSA-OAEP" ∨ a = "RSA-OAEP-256" then .bytes ckey else .none) := by
  obtain ⟨hd, a, enc, s0, ek, iv, ct, tag, extra, ckey, pt, h1, h2, h3, h4, h5, -, -, h7⟩ := decrypt_inv hC ht h
  obtain ⟨s, he, hau⟩ := jweDecrypt_authentic hC h5
  cases he
  exact ⟨hd, a, enc, s0, ek, iv, ct, tag, extra, ckey, h1, h2, h3, h4, hau, h7⟩

/-! ### Examples -/

/-- C92_stores and C93_message: the compressed RSA token. -/
example : ∃ token hd a enc s0 ek iv ct tag extra ckey pt, ReadAs token hd s0 ek iv ct tag extra ∧
      PyDict.get? hd "alg" = some (.str a) ∧ PyDict.get? hd "enc" = some (.str enc) ∧
      KeyFrom toyEnv (Candidate {} [exRsaPriv]) hd a enc [] ek ckey ∧ Authentic toyEnv enc ckey s0 iv ct tag ∧
      Opened toyCipher enc ckey iv ct pt ∧ Delivered toyEnv hd a pt (utf8Encode "hello") := by
  obtain ⟨t, ht, hd⟩ := exRsaer_token
  have hne : utf8Encode t ≠ [] := by
    intro h
    have h' := hd exRnd
    rw [h] at h'
    cases h'
  exact ⟨utf8Encode t, C93_message toyCipher_lawful (.inl ⟨hne, rfl⟩) (hd exRnd)⟩

/-- C93_sealed. -/
example : ∃ ct tag, Sealed toyEnv "A128GCM" (List.replicate 16 7) (List.replicate 12 9) [1] (ascii "hi") ct tag ∧
    ∀ q, Opened toyCipher "A128GCM" (List.replicate 16 7) (List.replicate 12 9) ct q → q = ascii "hi" := by
  obtain ⟨ct, tag, h⟩ := encSetup_total (E := toyEnv) toyCipher_lawful toyHashes_lawful (rnd := exRnd) .g128
    (m := ascii "hi") (aad := [1]) (key := List.replicate 16 7) (iv := List.replicate 12 9) (by simp) (by simp)
    (by decide) (by decide +kernel)
  obtain ⟨s, m, hs, hm, hse⟩ := C90_content toyCipher_lawful (by simp) (by simp) h
  cases hs
  cases hm
  exact ⟨ct, tag, hse, fun q hq => C93_sealed (E := toyEnv) toyCipher_lawful hse hq⟩

end Verif
