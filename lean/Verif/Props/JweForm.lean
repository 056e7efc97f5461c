import Verif.Spec.JweForm
import Verif.Props.JweEc
import Verif.Props.JwkMore
import Verif.Props.JweGate
/-
C89 and C90: the header and the segments of the tokens that `JWE.encrypt` makes.
-/

namespace Verif
open Spec

/-- `ct` and `tag` are the AES-GCM encryption of `pt` with the key `gcmKey key`, NIST SP 800-38D. -/
def Spec.SealedGcm (C : BlockCipher) (key iv aad pt ct tag : Bytes) : Prop :=
  bytesToNat key < 2 ^ 256 ∧ bytesToNat iv < 2 ^ 96 ∧ ct.length = pt.length ∧
  (∀ i < pt.length, ct[i]? =
    some (pt.getD i 0 ^^^ keyStream (C.enc (gcmKey key)) (natToBytesW 12 (bytesToNat iv)) i)) ∧
  ∃ t, IsGcmTag (C.enc (gcmKey key)) (natToBytesW 12 (bytesToNat iv)) aad ct t ∧ GcmTagSegment t tag

/-- `ct` and `tag` are the content encryption `enc` of `pt`. -/
def Spec.Sealed (E : Env) (enc : String) (key iv aad pt ct tag : Bytes) : Prop :=
  (∃ n, EncName enc n 12 ∧ SealedGcm E.C key iv aad pt ct tag) ∨
  (∃ n, EncName enc n 16 ∧ SealedCbc E.C E.H key iv aad pt ct tag)

/-! ### Content encryption -/

/-- The blocks chain. -/
theorem cbcEncBlocks_chain {C : BlockCipher} {key : Bytes} : ∀ (l : List Bytes) (iv : Bytes) (j : Nat) (p : Bytes),
    l[j]? = some p → ∃ prev, (iv :: cbcEncBlocks C key iv l)[j]? = some prev ∧
      (cbcEncBlocks C key iv l)[j]? = some (C.enc key (xorBytes p prev))
  | [], _, _, _, h => by simp at h
  | q :: l, iv, 0, p, h => by
    simp only [List.getElem?_cons_zero, Option.some.injEq] at h
    subst h
    exact ⟨iv, rfl, rfl⟩
  | q :: l, iv, j + 1, p, h => by
    simp only [List.getElem?_cons_succ] at h
    obtain ⟨prev, h1, h2⟩ := cbcEncBlocks_chain l (C.enc key (xorBytes q iv)) j p h
    exact ⟨prev, by simpa [cbcEncBlocks] using h1, by simpa [cbcEncBlocks] using h2⟩

/-- Block `j` of a concatenation of blocks. -/
theorem flatten_block : ∀ (l : List Bytes), (∀ b ∈ l, b.length = 16) → ∀ (j : Nat) (p : Bytes), l[j]? = some p →
    (l.flatten.drop (16 * j)).take 16 = p
  | [], _, _, _, h => by simp at h
  | q :: l, hl, 0, p, h => by
    simp only [List.getElem?_cons_zero, Option.some.injEq] at h
    subst h
    have hq := hl q (by simp)
    rw [List.flatten_cons, Nat.mul_zero, List.drop_zero, List.take_left' hq]
  | q :: l, hl, j + 1, p, h => by
    simp only [List.getElem?_cons_succ] at h
    have hq := hl q (by simp)
    have := flatten_block l (fun b hb => hl b (by simp [hb])) j p h
    rw [List.flatten_cons, show 16 * (j + 1) = 16 + 16 * j by omega, ← List.drop_drop, List.drop_left' hq]
    exact this

theorem isCbc_of_encrypt {C : BlockCipher} (hC : C.Lawful) {key iv data ct : Bytes} (hk : aesKeyOk key = true)
    (h : cbcEncrypt C key iv data = .ok ct) : IsCbc (C.enc key) iv data ct := by
  unfold cbcEncrypt at h
  simp only [aesNew, hk, if_true, Bind.bind, Except.bind] at h
  split at h
  · cases h
  rename_i hiv
  split at h
  · cases h
  rename_i hd
  cases h
  have hiv : iv.length = 16 := by omega
  obtain ⟨b1, b2⟩ := blocks16_spec data (by omega)
  obtain ⟨-, c2, c3⟩ := cbcEncBlocks_spec hC hk (blocks16 data) iv hiv b2
  have hbl : 16 * (blocks16 data).length = data.length := by
    have := (blocks16_flatten _ b2).2
    rw [b1] at this
    exact this.symm
  refine ⟨by rw [(blocks16_flatten _ c2).2, c3, hbl], ?_⟩
  intro j hj
  have hjl : j < (blocks16 data).length := by omega
  obtain ⟨prev, e1, e2⟩ := cbcEncBlocks_chain (C := C) (key := key) (blocks16 data) iv j _
    (List.getElem?_eq_getElem hjl)
  have g1 := flatten_block _ b2 j _ (List.getElem?_eq_getElem hjl)
  rw [b1] at g1
  have g2 := flatten_block _ c2 j _ e2
  have g3 := flatten_block (iv :: cbcEncBlocks C key iv (blocks16 data)) (by
    intro b hb
    rcases List.mem_cons.mp hb with rfl | hb
    · exact hiv
    · exact c2 b hb) j _ e1
  rw [List.flatten_cons] at g3
  rw [g1, g2, g3]

theorem gcmKey_eq (key : Bytes) (h : bytesToNat key < 2 ^ 256) :
    longToBytes (bytesToNat key) 16 = gcmKey key := by
  unfold gcmKey
  split
  · rename_i h1
    exact longToBytes_eq _ _ (by norm_num) (lt_of_lt_of_eq h1 (by norm_num))
  · rename_i h1
    apply bytesToNat_inj
    · rw [natToBytesW_length]
      exact longToBytes16_length _ (le_of_eq_of_le (by norm_num) (not_lt.mp h1)) (lt_of_lt_of_eq h (by norm_num))
    · rw [bytesToNat_longToBytes, bytesToNat_natToBytesW, Nat.mod_eq_of_lt (lt_of_lt_of_eq h (by norm_num))]

theorem natToBytes_head : ∀ n, (natToBytes n).head? ≠ some 0
  | n => by
    rw [natToBytes]
    split
    · simp
    · rename_i h
      have ih := natToBytes_head (n / 256)
      rw [List.head?_append]
      rcases hx : (natToBytes (n / 256)).head? with _ | b
      · rw [List.head?_eq_none_iff] at hx
        have h0 : n / 256 = 0 := by
          by_contra hc
          rw [natToBytes, dif_neg hc] at hx
          simp at hx
        simp only [List.head?_cons, Option.none_or, ne_eq, Option.some.injEq]
        intro hb
        have := congrArg UInt8.toNat hb
        simp at this
        omega
      · rw [hx] at ih
        simpa using ih
termination_by n => n
decreasing_by omega

theorem natToBytesW_zero : ∀ w, natToBytesW w 0 = List.replicate w 0
  | 0 => rfl
  | w + 1 => by
    rw [natToBytesW, Nat.zero_div, natToBytesW_zero w, List.replicate_succ']
    rfl

theorem gcmTagSegment_of {t : Nat} (ht : t < 2 ^ 128) : GcmTagSegment t (longToBytes t) := by
  unfold GcmTagSegment longToBytes
  simp only [gt_iff_lt, Nat.lt_irrefl, false_and, if_false]
  by_cases h0 : t = 0
  · subst h0
    exact ⟨15, by rw [natToBytesW_zero]; rfl, by simp, by simp⟩
  · simp only [h0, if_false]
    have hl : (natToBytes t).length ≤ 16 := natToBytes_length_le 16 t (lt_of_lt_of_eq ht (by norm_num))
    refine ⟨16 - (natToBytes t).length, ?_, fun h => absurd h (natToBytes_head t), ?_⟩
    · apply bytesToNat_inj
      · rw [natToBytesW_length, List.length_append, List.length_replicate]; omega
      · rw [bytesToNat_natToBytesW, Nat.mod_eq_of_lt (lt_of_lt_of_eq ht (by norm_num)),
          bytesToNat_replicate_zero, bytesToNat_natToBytes]
    · rw [natToBytes, dif_neg h0]; simp

/-- **C90.** Content encryption is AES-GCM or AES-CBC-HMAC over the given data, as the standards say
(with the two departures of `gcmKey` and `GcmTagSegment`). -/
theorem C90_content {E : Env} (hC : E.C.Lawful) {rnd : JweRnd} {enc msg : PyVal}
    {aad key iv ct tag : Bytes} (hk : key ≠ []) (hi : iv ≠ [])
    (h : encSetup E rnd enc msg aad key iv = .ok (ct, tag)) :
    ∃ s m, enc = .str s ∧ msg = .bytes m ∧ Sealed E s key iv aad m ct tag := by
  unfold encSetup at h
  have hg : generateKeyAndIv rnd enc key iv = .ok (key, iv) := by
    unfold generateKeyAndIv; rw [if_pos ⟨hk, hi⟩]
  simp only [hg, Bind.bind, Except.bind] at h
  split at h
  · rename_i hgcm
    obtain ⟨g, hg1, h1⟩ := bind_ok_iff.mp h
    obtain ⟨m, hm, h2⟩ := bind_ok_iff.mp h1
    obtain ⟨⟨ct', tag'⟩, he, h3⟩ := bind_ok_iff.mp h2
    cases h3
    obtain ⟨hr, hp⟩ := gcm_new_reachable hg1
    have hm : msg = .bytes m := by
      cases msg <;> simp [wantBytes] at hm; rw [hm]
    obtain ⟨s, rfl, hs⟩ := strIn_str hgcm
    have hk256 : bytesToNat key < 2 ^ 256 := by
      by_contra hc
      rw [(C47_accepts hC key).2 (by omega)] at hg1
      cases hg1
    have hiv : bytesToNat iv < 2 ^ 96 := by
      by_contra hc
      rw [(C45_reuse_refused g _ m aad).1 (.inr (by omega))] at he
      cases he
    have hl : m.length ≤ 16 * 2 ^ 32 := by
      by_contra hc
      rw [C44_too_long hC hr _ hiv (by rw [hp]; simp) m aad (by omega)] at he
      cases he
    obtain ⟨ct2, tag2, e1, e2, e3, e4⟩ := C44_encrypt hC hr _ hiv (by rw [hp]; simp) m aad hl
    rw [e1] at he
    cases he
    rw [gcmKey_eq key hk256] at e3 e4
    refine ⟨s, m, rfl, hm, .inl ?_⟩
    have hs' : ∃ n, EncName s n 12 := by
      simp only [List.mem_cons, List.not_mem_nil, or_false] at hs
      rcases hs with rfl | rfl | rfl
      · exact ⟨_, .g192⟩
      · exact ⟨_, .g128⟩
      · exact ⟨_, .g256⟩
    obtain ⟨n, hn⟩ := hs'
    exact ⟨n, hn, hk256, hiv, e2, e3, _, e4, gcmTagSegment_of e4.1⟩
  · rename_i hgcm
    split at h
    · rename_i hcbc
      obtain ⟨m, hm, h1⟩ := bind_ok_iff.mp h
      have hm : msg = .bytes m := by
        cases msg <;> simp [wantBytes] at hm; rw [hm]
      obtain ⟨s, rfl, hs⟩ := strIn_str hcbc
      refine ⟨s, m, rfl, hm, .inr ?_⟩
      have hs' : ∃ n, EncName s n 16 := by
        simp only [List.mem_cons, List.not_mem_nil, or_false] at hs
        rcases hs with rfl | rfl | rfl
        · exact ⟨_, .c128⟩
        · exact ⟨_, .c192⟩
        · exact ⟨_, .c256⟩
      obtain ⟨n, hn⟩ := hs'
      refine ⟨n, hn, ?_⟩
      by_cases hb : iv.length ≠ 16 ∨ ∀ p ∈ cbcHmacParams, key.length ≠ p.1
      · rw [(C39_bad_sizes E.C E.H key iv aad m [] hb).1] at h1
        cases h1
      simp only [not_or, not_forall, not_not] at hb
      obtain ⟨hivl, ⟨n, s, a⟩, hp, hkl⟩ := hb
      obtain ⟨hgk, hke, -⟩ := getKeys_ok hp hkl hivl
      unfold aesCbcHmacEncrypt cbcHmacTag at h1
      simp only [hgk, Bind.bind, Except.bind] at h1
      obtain ⟨ct', hct, h2⟩ := bind_ok_iff.mp h1
      obtain ⟨al, hal, h3⟩ := bind_ok_iff.mp h2
      obtain ⟨q, hq, h4⟩ := bind_ok_iff.mp hal
      cases h4
      cases h3
      have hq' : q = natToBytesW 8 (8 * aad.length) := by
        unfold packQ at hq
        split at hq
        · cases hq; rfl
        · cases hq
      subst hq'
      have hpad : pkcs5pad m = padded m := by
        unfold pkcs5pad padded
        simp only
        rw [if_neg (by omega)]
      rw [hpad] at hct
      exact ⟨hivl, s, a, by rw [hkl]; exact hp, isCbc_of_encrypt hC hke hct, rfl⟩
    · cases h

/-! ### The segments -/

/-- The content key and iv: those given, or else random ones of the size that `enc` wants. -/
def Spec.Chosen (rnd : JweRnd) (enc : String) (cek iv c v : Bytes) : Prop :=
  ∃ n i, EncName enc n i ∧ c = (if cek = [] then rnd.key n else cek) ∧ v = (if iv = [] then rnd.iv i else iv)

theorem Spec.Sealed.name {E : Env} {enc : String} {key iv aad pt ct tag : Bytes}
    (h : Sealed E enc key iv aad pt ct tag) : ∃ n i, EncName enc n i := by
  rcases h with ⟨n, h, -⟩ | ⟨n, h, -⟩ <;> exact ⟨n, _, h⟩

theorem chosen_of {rnd : JweRnd} (hr : RndLengths rnd) {enc : String} (he : ∃ n i, EncName enc n i)
    {cek iv c v : Bytes} (h : generateKeyAndIv rnd (.str enc) cek iv = .ok (c, v)) :
    Chosen rnd enc cek iv c v := by
  obtain ⟨n, i, he⟩ := he
  obtain ⟨c', v', h1, h2, h3, h4, h5⟩ := C64_sizes hr he cek iv
  rw [h] at h1
  cases h1
  refine ⟨n, i, he, ?_, ?_⟩
  · split
    · exact (h4 (by assumption)).1
    · exact h2 (by assumption)
  · split
    · exact (h5 (by assumption)).1
    · exact h3 (by assumption)

/-- The parts of a token are determined by the token. -/
theorem C90_unique {token s0 s0' : Bytes} {h h' : PyVal} {ek iv ct tag ek' iv' ct' tag' : Bytes}
    (p : JweParts token s0 h ek iv ct tag) (p' : JweParts token s0' h' ek' iv' ct' tag') :
    s0 = s0' ∧ h = h' ∧ ek = ek' ∧ iv = iv' ∧ ct = ct' ∧ tag = tag' := by
  obtain ⟨hb, h1⟩ := jweParts_unpack p
  obtain ⟨hb', h2⟩ := jweParts_unpack p'
  rw [h1] at h2
  simp only [Except.ok.injEq, Jwt.mk.injEq, List.cons.injEq] at h2
  exact ⟨h2.2.1.1, h2.1, h2.2.2.2.1, h2.2.2.2.2.1, h2.2.2.2.2.2.1, h2.2.2.2.2.2.2.1⟩

theorem wrap_is {C : BlockCipher} (hC : C.Lawful) {kek c ek : Bytes} (hl : c.length < 2 ^ 61)
    (h : aesWrapKey C kek c = .ok ek) : ek = wrapped C kek c := by
  have h1 := (C37_default C hC kek c (aesKeyOk_of_wrap h) hl).1
  rw [h] at h1
  cases h1
  rfl

/-- **C90.** Symmetric key wrap: the second segment is the RFC 3394 wrap of the content key under the
leading bytes of the SHA-256 digest of the secret, and the last three are iv, ciphertext and tag of the
content encryption of the message with the first segment as additional data. -/
theorem C90_wrap {E : Env} (hC : E.C.Lawful) (hH : E.H.Lawful) {o : Jwe} {rnd : JweRnd}
    (hr : RndLengths rnd) {keys : List Key} {cek iv : Bytes} {kid : Option PyVal} {t : String}
    {alg : String} {n : Nat} (halg : PyDict.get? o.dict "alg" = some (.str alg))
    (hm : MgmtName alg (.wrap n)) (hv : RealValues o keys kid) (hcek : cek.length < 2 ^ 61)
    (h : (o.encrypt E rnd keys cek iv kid).1 = .ok t) :
    ∃ l wk k, EffKeys o.toJwx keys l ∧ SignKid o.toJwx wk ∧ FirstPicked (.wrap n) alg wk l k ∧
      ∀ secret, SharedKey k secret → ∃ s0 hdr ek v ct tag c enc m,
        JweParts (utf8Encode t) s0 hdr ek v ct tag ∧ PyDict.get? o.dict "enc" = some (.str enc) ∧
        o.msg = .str m ∧ Chosen rnd enc cek iv c v ∧
        ek = wrapped E.C ((E.H.hash .sha256 secret).take n) c ∧
        Sealed E enc c v s0 (utf8Encode m) ct tag := by
  obtain ⟨l, wk, k, c, heff, hsk, hf, hw⟩ := jwe_encrypt_ok halg hm h
  obtain ⟨hne, hnn, -⟩ := mgmt_keytype hm
  unfold Jwe.encryptWith at hw
  rw [mgmt_kind hm] at hw
  simp only [Bind.bind, Except.bind] at hw
  obtain ⟨ka, hka, hw1⟩ := bind_ok_iff.mp hw
  obtain ⟨t', ht', hw2⟩ := bind_ok_iff.mp hw1
  cases hw2
  have hkl : k ∈ l := by obtain ⟨pre, post, rfl, -⟩ := hf; simp
  have hsd : Distinct (.dict o.symEncrypter.dict) := distinct_initFold hv.dict _ _ distinct_nil
  have hsa : PyDict.get? o.symEncrypter.dict "alg" = some (.str alg) := get?_initFold_alg _ _ halg _
  have hjk : (o.symEncrypter.setKid k).jwk = o.jwk := by
    unfold Jwe.setKid; split <;> rfl
  have hmsg : (o.symEncrypter.setKid k).msg = o.msg := by
    unfold Jwe.setKid; split <;> rfl
  obtain ⟨kek, enc, cek', iv', jek, m, bh, h', ct, tag, hkek, henc, hgen, hjek, hmm, hparts, hh', hes⟩ :=
    symEncrypt_ok (by rw [get?_setKid (by decide)]; exact hsa) hne
      (distinct_setKid hsd (hv.key_kid heff hkl)) (by rw [hjk]; exact hv.jwk) hv.kid ht'
  refine ⟨l, wk, k, heff, hsk, hf, ?_⟩
  intro secret hsec
  obtain ⟨hc1, hc2, hc3⟩ := generate_ok hr hgen
  obtain ⟨encs, m', rfl, hm', hs⟩ := C90_content hC hc1 hc2 hes
  cases hm'
  rw [get?_setKid (by decide)] at henc
  have henc' : PyDict.get? o.dict "enc" = some (.str encs) := by
    rw [← henc]
    exact (get?_initFold_mem _ "enc" (by decide) (by decide) (by decide) _ (by decide) _ rfl).symm
  rw [(shared_encryptionKey hH hsec hm true).1] at hka
  cases hka
  cases hkek
  refine ⟨bh, _, jek, iv', ct, tag, cek', encs, m, hparts, henc', by rw [← hmsg]; exact hmm,
    chosen_of hr hs.name hgen, wrap_is hC ?_ hjek, hs⟩
  rcases hc3 with rfl | ⟨-, hl⟩
  · exact hcek
  · simp only [List.mem_cons, List.not_mem_nil, or_false] at hl
    omega

/-- What is encrypted: the message, compressed if the object has `zip`. -/
def Spec.Zipped (E : Env) (d : PyDict) (m z : Bytes) : Prop :=
  (PyDict.get? d "zip" = none ∧ z = m) ∨ (PyDict.get? d "zip" = some (.str "DEF") ∧ z = E.Z.compress m)

/-- **C90.** RSA: the second segment is the RSA encryption of the content key with the padding of the
algorithm (empty if the caller supplied the content key), and the last three are iv, ciphertext and tag
of the content encryption of the (compressed) message with the first segment as additional data. -/
theorem C90_rsa {E : Env} (hC : E.C.Lawful) {o : Jwe} {rnd : JweRnd} (hr : RndLengths rnd) {keys : List Key}
    {cek iv : Bytes} {kid : Option PyVal} {t : String} {alg : String} {p : RsaPad}
    (halg : PyDict.get? o.dict "alg" = some (.str alg))
    (hm : MgmtName alg (.rsa p)) (hv : RealValues o keys kid)
    (hser : ∀ k v, o.jwk = some (.key k) → k.serializeDflt = .ok v → Distinct v)
    (h : (o.encrypt E rnd keys cek iv kid).1 = .ok t) :
    ∃ l wk k, EffKeys o.toJwx keys l ∧ SignKid o.toJwx wk ∧ FirstPicked (.rsa p) alg wk l k ∧
      ∀ r, HoldsRsa k r → ∃ s0 hdr ek v ct tag c enc m z,
        JweParts (utf8Encode t) s0 hdr ek v ct tag ∧ PyDict.get? o.dict "enc" = some (.str enc) ∧
        MsgBytes o.msg m ∧ Zipped E o.dict m z ∧ Chosen rnd enc cek iv c v ∧
        PyDict.get? (o.encrypt E rnd keys cek iv kid).2.dict "cek" = some (.bytes c) ∧
        (cek = [] → RsaSealed E p r rnd.rsa c ek) ∧ (cek ≠ [] → ek = []) ∧
        Sealed E enc c v s0 z ct tag := by
  obtain ⟨l, wk, k, cv, heff, hsk, hf, hw⟩ := jwe_encrypt_ok halg hm h
  have hst := encrypt_state halg hm heff hsk hf hw
  unfold Jwe.encryptWith at hw
  rw [mgmt_kind hm] at hw
  simp only [Bind.bind, Except.bind] at hw
  obtain ⟨ka, hka, hw1⟩ := bind_ok_iff.mp hw
  obtain ⟨⟨t', c⟩, ht', hw2⟩ := bind_ok_iff.mp hw1
  cases hw2
  have hkl : k ∈ l := by obtain ⟨pre, post, rfl, -⟩ := hf; simp
  have hsd : Distinct (.dict o.rsaEncrypter.dict) := distinct_initFold hv.dict _ _ distinct_nil
  have hsa : PyDict.get? o.rsaEncrypter.dict "alg" = some (.str alg) := get?_initFold_alg _ _ halg _
  have hjk : (o.rsaEncrypter.setKid k).jwk = o.jwk := by
    unfold Jwe.setKid; split <;> rfl
  have hmsg : (o.rsaEncrypter.setKid k).msg = o.msg := by
    unfold Jwe.setKid; split <;> rfl
  have hcopy : ∀ n, n ≠ "kid" → n ≠ "x5c" → n ≠ "crit" → n ≠ "alg" → n ∈ jweArgs1 ++ jweArgs2 →
      PyDict.get? (o.rsaEncrypter.setKid k).dict n = PyDict.get? o.dict n := by
    intro n h1 h2 h3 h4 h5
    rw [get?_setKid h1]
    exact get?_initFold_mem _ n h2 h3 h4 _ h5 _ rfl
  obtain ⟨enc, iv', msg, ek, bh, hdrs, h', ct, tag, henc, hgen, hzip, hek, hparts, -, -, hes⟩ :=
    rsaEncrypt_form hm (by rw [get?_setKid (by decide)]; exact hsa)
      (distinct_setKid hsd (hv.key_kid heff hkl)) (by rw [hjk]; exact hser) ht'
  refine ⟨l, wk, k, heff, hsk, hf, ?_⟩
  intro r hrk
  obtain ⟨hc1, hc2, hc3⟩ := generate_ok hr hgen
  obtain ⟨encs, z, rfl, rfl, hs⟩ := C90_content hC hc1 hc2 hes
  rw [holdsRsa_key hrk] at hka
  cases hka
  have hz : ∃ m, MsgBytes o.msg m ∧ Zipped E o.dict m z := by
    rcases zipMsg_ok hzip with ⟨h1, h2⟩ | ⟨h1, b, h2, h3⟩ <;>
      rw [hcopy "zip" (by decide) (by decide) (by decide) (by decide) (by decide)] at h1 <;> rw [hmsg] at h2
    · exact ⟨z, asBytes_msg h2.symm, .inl ⟨h1, rfl⟩⟩
    · cases h3
      exact ⟨b, asBytes_msg h2, .inr ⟨h1, rfl⟩⟩
  obtain ⟨m, hm1, hm2⟩ := hz
  refine ⟨bh, _, ek, iv', ct, tag, c, encs, m, z, hparts, ?_, hm1, hm2, chosen_of hr hs.name hgen, hst, ?_, ?_, hs⟩
  · rw [← henc, hcopy "enc" (by decide) (by decide) (by decide) (by decide) (by decide)]
  · intro hc
    have he := (hek.resolve_left (fun hx => hx.1 hc)).2
    simp only [rsaEncrypterEncrypt, rsaKeyArg, Bind.bind, Except.bind] at he
    unfold RsaSealed
    cases p <;> simpa using he
  · intro hc
    exact (hek.resolve_right (fun hx => hc hx.1)).2

/-! ### Agreement -/

theorem derive_is {H : Hashes} (hH : H.Lawful) {z apu apv out : Bytes} {name : String} {n : Nat} (hn : n ≤ 64)
    (ha : utf8Encode name = ascii name)
    (h : ecdhDeriveFromZ H z apu apv (utf8Encode name) (8 * n) = .ok out) :
    out = agreedKey H z name apu apv n := by
  unfold ecdhDeriveFromZ at h
  simp only [Bind.bind] at h
  obtain ⟨oi, ho, h1⟩ := bind_ok_iff.mp h
  obtain ⟨-, -, -, rfl⟩ := ecdhOtherInfo_ok _ _ _ _ _ ho
  obtain ⟨out', e1, e2, e3, e4, -⟩ := C41_concat H hH z _ (8 * n) (by unfold dkBytesOf; omega)
  rw [e1] at h1
  cases h1
  have hl : out.length = n := by omega
  have := e4 2 (by omega)
  rw [hl, ha] at this
  exact this

theorem keylen_is {enc : String} {N : Nat} {b : Bytes} (h : keylen (.str enc) = .ok (N, b)) :
    ∃ n i, EncName enc n i ∧ N = 8 * n ∧ b = utf8Encode enc := by
  unfold keylen at h
  simp only at h
  split at h
  · rename_i n' hs
    cases h
    have hmem : (enc, N) ∈ keylenTable := by
      rw [List.lookup_eq_some_iff] at hs
      obtain ⟨l1, l2, hl, -⟩ := hs
      rw [hl]; simp
    simp only [keylenTable, List.mem_cons, Prod.mk.injEq, List.not_mem_nil, or_false] at hmem
    rcases hmem with ⟨rfl, rfl⟩ | ⟨rfl, rfl⟩ | ⟨rfl, rfl⟩ | ⟨rfl, rfl⟩ | ⟨rfl, rfl⟩ | ⟨rfl, rfl⟩
    · exact ⟨_, _, .g128, rfl, rfl⟩
    · exact ⟨_, _, .g192, rfl, rfl⟩
    · exact ⟨_, _, .g256, rfl, rfl⟩
    · exact ⟨_, _, .c128, rfl, rfl⟩
    · exact ⟨_, _, .c192, rfl, rfl⟩
    · exact ⟨_, _, .c256, rfl, rfl⟩
  · cases h

theorem ecKwAlg_is {alg : String} {N : Nat} {b : Bytes} (h : ecKwAlg (.str alg) = some (b, N)) :
    ∃ w n, WrapName alg w n ∧ N = 8 * n ∧ b = utf8Encode w := by
  unfold ecKwAlg at h
  simp only [PyVal.str.injEq] at h
  split at h
  · cases h; subst alg; exact ⟨_, _, .a128, rfl, rfl⟩
  split at h
  · cases h; subst alg; exact ⟨_, _, .a192, rfl, rfl⟩
  split at h
  · cases h; subst alg; exact ⟨_, _, .a256, rfl, rfl⟩
  cases h

/-- The value of `apu` or `apv`: the one stored in the object, in base64url, or else random. -/
def Spec.Party (d : PyDict) (name : String) (dflt b : Bytes) : Prop :=
  (PyDict.get? d name = none → b = dflt) ∧
  ∀ v, PyDict.get? d name = some v → ∃ t, v = .bytes t ∧ b64d t = .ok b

theorem party_of {d : PyDict} {name : String} {dflt b : Bytes} (h : partyParam d name dflt = .ok b) :
    Party d name dflt b := by
  unfold partyParam at h
  split at h
  · rename_i v hv
    refine ⟨fun hn => (by rw [hv] at hn; cases hn), fun w hw => ?_⟩
    rw [hv] at hw
    cases hw
    unfold b64dVal at h
    split at h
    · exact ⟨_, rfl, h⟩
    · cases h
    · cases h
  · rename_i hv
    cases h
    exact ⟨fun _ => rfl, fun w hw => (by rw [hv] at hw; cases hw)⟩

/-- The bytes stored under a name (a value that is not bytes does not occur and counts as none). -/
def Spec.Stored (d : PyDict) (name : String) (b : Bytes) : Prop :=
  PyDict.get? d name = some (.bytes b) ∨ (b = [] ∧ ∀ b', PyDict.get? d name ≠ some (.bytes b'))

theorem stored_of (d : PyDict) (name : String) : Stored d name (storedBytes d name) := by
  unfold storedBytes Stored
  split
  · rename_i b hb; exact .inl hb
  · rename_i hb; exact .inr ⟨rfl, hb⟩

/-- The header names the parties and the ephemeral public key, and nothing more of that key than its
labels. -/
structure Spec.EpkHeader (h : PyDict) (C : NistCurve) (X Y : Nat) (apu apv : Bytes) : Prop where
  apu : ∃ s, PyDict.get? h "apu" = some (.str s) ∧ utf8Encode s = b64e apu
  apv : ∃ s, PyDict.get? h "apv" = some (.str s) ∧ utf8Encode s = b64e apv
  epk : ∃ d, PyDict.get? h "epk" = some (.dict d) ∧
    PyDict.get? d "crv" = some (.str C.name) ∧
    (∃ s, PyDict.get? d "x" = some (.str s) ∧ UIntText X s) ∧
    (∃ s, PyDict.get? d "y" = some (.str s) ∧ UIntText Y s) ∧
    ∀ n, n ∉ ["kty", "use", "kid", "alg", "crv", "x", "y"] → PyDict.get? d n = none

/-- **C90.** Agreement: the content key, or the key that wraps it, is derived from the Diffie-Hellman
secret of the ephemeral key and the recipient's point; the header carries the public half of the
ephemeral key; the last three segments are iv, ciphertext and tag of the content encryption of the
message with the first segment as additional data.  (The arguments `cek` and `iv` have no influence:
what counts are the entries of the object.) -/
theorem C90_ecdh {E : Env} (hC : E.C.Lawful) (hH : E.H.Lawful) {o : Jwe} {rnd : JweRnd}
    (hr : RndLengths rnd) {keys : List Key} {cek iv : Bytes} {kid : Option PyVal} {t : String}
    {alg : String} {m : KeyMgmt} (halg : PyDict.get? o.dict "alg" = some (.str alg))
    (hm : MgmtName alg m) (hma : IsAgreement m) (hv : RealValues o keys kid)
    (hcek : ∀ b, PyDict.get? o.dict "cek" = some (.bytes b) → b.length < 2 ^ 61)
    (h : (o.encrypt E rnd keys cek iv kid).1 = .ok t) :
    ∃ l wk k, EffKeys o.toJwx keys l ∧ SignKid o.toJwx wk ∧ FirstPicked m alg wk l k ∧
      ∀ (C : NistCurve) X Y, HasPoint C X Y k → (∀ e, o.epk = some e → EphemeralKey C e) →
        ∃ s0 hdr ek v ct tag c c0 i0 b0 enc pt apu apv z, ∃ d ex ey : Nat,
          JweParts (utf8Encode t) s0 (.dict hdr) ek v ct tag ∧ PyDict.get? o.dict "enc" = some (.str enc) ∧
          MsgBytes o.msg pt ∧ Sealed E enc c v s0 pt ct tag ∧
          Stored o.dict "cek" b0 ∧ Stored o.dict "iv" i0 ∧ Chosen rnd enc b0 i0 c0 v ∧
          Party o.dict "apu" rnd.apu apu ∧ Party o.dict "apv" rnd.apv apv ∧
          EpkHeader hdr C ex ey apu apv ∧
          C.publicKeyFor d = some ((ex : Int), (ey : Int)) ∧
          (o.epk = none → d = (C.keyPair rnd.eph).1) ∧ (∀ e, o.epk = some e → HasScalar d e) ∧
          C.dhZ d (some (X, Y)) = .ok z ∧
          ((alg = "ECDH-ES" ∧ ek = [] ∧ ∃ n i, EncName enc n i ∧ c = agreedKey E.H z enc apu apv n) ∨
           (c = c0 ∧ ∃ w n, WrapName alg w n ∧ ek = wrapped E.C (agreedKey E.H z w apu apv n) c)) := by
  obtain ⟨l, wk, k, c, heff, hsk, hf, hw⟩ := jwe_encrypt_ok halg hm h
  obtain ⟨hne, hnn, -⟩ := mgmt_keytype hm
  refine ⟨l, wk, k, heff, hsk, hf, ?_⟩
  intro C X Y hk hepk
  have hkind : jweKind (.str alg) = .ok .ec := by
    rw [mgmt_kind hm]; cases m <;> first | rfl | cases hma
  unfold Jwe.encryptWith at hw
  rw [hkind] at hw
  simp only [Bind.bind, ebind_ok] at hw
  obtain ⟨⟨cek', ek, iv', params⟩, hsetup, hw1⟩ := bind_ok_iff.mp hw
  obtain ⟨_, -, hw2⟩ := bind_ok_iff.mp hw1
  obtain ⟨_, -, hw3⟩ := bind_ok_iff.mp hw2
  obtain ⟨t', ht', hw4⟩ := bind_ok_iff.mp hw3
  cases hw4
  have hkl : k ∈ l := by obtain ⟨pre, post, rfl, -⟩ := hf; simp
  have hsd : Distinct (.dict o.symEncrypter.dict) := distinct_initFold hv.dict _ _ distinct_nil
  have hsa : PyDict.get? o.symEncrypter.dict "alg" = some (.str alg) := get?_initFold_alg _ _ halg _
  have hjk : (o.symEncrypter.setKid k).jwk = o.jwk := by
    unfold Jwe.setKid; split <;> rfl
  have hmsg : (o.symEncrypter.setKid k).msg = o.msg := by
    unfold Jwe.setKid; split <;> rfl
  obtain ⟨apu, apv, e, ex, ey, ed, enc, cek0, z, px, py, hpub, hdist, rfl, henc, hgen, hz, hagr, hapu, hapv,
    heph, hscal⟩ := ecEncSetup_form hk hepk hsa hsetup
  obtain ⟨hc1, hc2, hc3⟩ := generate_ok hr hgen
  obtain ⟨ekb, hekb⟩ : ∃ ekb, MsgBytes ek ekb := by
    rcases hagr with ⟨-, _, _, -, -, rfl⟩ | ⟨-, _, _, _, jek, -, -, -, rfl, -⟩
    · exact ⟨_, .inl ⟨_, rfl, rfl⟩⟩
    · exact ⟨_, .inr rfl⟩
  obtain ⟨enc1, bh, h', ct, tag, henc1, hparts, hh', hes⟩ :=
    ecEncrypt_ok (by rw [get?_setKid (by decide)]; exact hsa) hne
      (distinct_setKid hsd (hv.key_kid heff hkl)) (by rw [hjk]; exact hv.jwk) hv.kid (by
        intro p hp
        simp only [List.mem_cons, List.not_mem_nil, or_false] at hp
        rcases hp with rfl | rfl | rfl
        · trivial
        · trivial
        · exact hdist) (by simp) rfl rfl hekb ht'
  rw [get?_setKid (by decide), henc] at henc1
  cases henc1
  have hcne : cek' ≠ [] := by
    rcases hagr with ⟨-, n, encB, hkl, hder, -⟩ | ⟨-, _, _, _, _, -, -, -, -, rfl⟩
    · exact derived_ne hH (keylen_ok hkl).1 (keylen_ok hkl).2 hder
    · exact hc1
  obtain ⟨encs, pt, rfl, hpt, hs⟩ := C90_content hC hcne hc2 hes
  rw [hmsg] at hpt
  have henc' : PyDict.get? o.dict "enc" = some (.str encs) := by
    rw [← henc]
    exact (get?_initFold_mem _ "enc" (by decide) (by decide) (by decide) _ (by decide) _ rfl).symm
  -- the header as it comes back
  have hpar : ∀ n v, n ≠ "jwk" → PyDict.get? [("apu", PyVal.bytes (b64e apu)),
      ("apv", .bytes (b64e apv)), ("epk", .dict (ecDict e C ex ey none))] n = some v →
      ∃ w, b2sConv v = .ok w ∧ PyDict.get? h' n = some w := by
    intro n v h2 h3
    exact b2sConvD_get? hh' v (by rw [get?_jwencArgs h2, get?_update_some (by simp) h3])
  obtain ⟨w1, hw1, hU⟩ := hpar "apu" _ (by decide) rfl
  obtain ⟨su, rfl, hsu⟩ := b2sConv_b64e hw1
  obtain ⟨w2, hw2, hV⟩ := hpar "apv" _ (by decide) rfl
  obtain ⟨sv, rfl, hsv⟩ := b2sConv_b64e hw2
  obtain ⟨w3, hw3, hP⟩ := hpar "epk" _ (by decide) rfl
  obtain ⟨d', hd', rfl⟩ : ∃ d', b2sConvD (ecDict e C ex ey none) = .ok d' ∧ w3 = .dict d' := by
    simp only [b2sConv] at hw3
    cases hx : b2sConvD (ecDict e C ex ey none) with
    | error _ => rw [hx] at hw3; cases hw3
    | ok d' => rw [hx] at hw3; cases hw3; exact ⟨d', rfl, rfl⟩
  have hsome : ∀ n s, PyDict.get? (ecDict e C ex ey none) n = some (.str s) → PyDict.get? d' n = some (.str s) := by
    intro n s hs
    obtain ⟨w, hw, hw'⟩ := b2sConvD_get? hd' _ hs
    cases hw; exact hw'
  have hnone : ∀ n, PyDict.get? (ecDict e C ex ey none) n = none → PyDict.get? d' n = none :=
    fun n hs => b2sConvD_get?_none hd' hs
  have hch := chosen_of hr hs.name hgen
  have hepkd : (o.epk = none → ed = (C.keyPair rnd.eph).1) ∧ (∀ e, o.epk = some e → HasScalar ed e) := by
    obtain ⟨crv', x', y', c', hem⟩ := hscal
    constructor
    · intro h0
      unfold Jwe.ephemeral at heph
      rw [h0] at heph
      simp only at heph
      split at heph
      · cases heph
      · have hk0 : ecKeyNew [] (.val .none) (.val .none) 0 = .ok
            (keyCommon "EC" ecArgs [] (.val .none) (.ec (.str "") (.str "") (.str "") (.str "") (.val .none))) := rfl
        rw [hk0] at heph
        simp only [Bind.bind, Except.bind, ecLoadKey] at heph
        split at heph
        · rename_i d0 x0 y0 hkp
          cases heph
          simp only at hem
          cases hem
          rw [hkp]
        · cases heph
    · intro e0 he0
      unfold Jwe.ephemeral at heph
      rw [he0] at heph
      simp only at heph
      split at heph
      · cases heph; exact ⟨crv', x', y', c', hem⟩
      · cases heph
  refine ⟨bh, h', ekb, iv', ct, tag, cek', cek0, _, _, encs, pt, apu, apv, z, ed, ex, ey, hparts, henc',
    asBytes_msg hpt, hs, stored_of _ _, stored_of _ _, hch, party_of hapu, party_of hapv,
    ⟨⟨su, hU, hsu⟩, ⟨sv, hV, hsv⟩, d', hP, ?_, ?_, ?_, ?_⟩, hpub, hepkd.1, hepkd.2, hz, ?_⟩
  · exact hsome "crv" _ (by simp [ecDict, get?_optSet, PyDict.get?_set])
  · exact ⟨_, hsome "x" _ (by simp [ecDict, get?_optSet, PyDict.get?_set]), (uintTxt_spec px).1⟩
  · exact ⟨_, hsome "y" _ (by simp [ecDict, get?_optSet, PyDict.get?_set]), (uintTxt_spec py).1⟩
  · intro n hn
    simp only [List.mem_cons, List.not_mem_nil, or_false, not_or] at hn
    refine hnone n ?_
    simp [ecDict, get?_optSet, PyDict.get?_set, get?_common, hn]
  · rcases hagr with ⟨rfl, n, encB, hkl, hder, rfl⟩ | ⟨ha, post, n, kek, jek, hkw, hder, hwr, rfl, rfl⟩
    · obtain ⟨n', i', hen, rfl, rfl⟩ := keylen_is hkl
      refine .inl ⟨rfl, ?_, n', i', hen, derive_is hH (by cases hen <;> decide) (by cases hen <;> decide) hder⟩
      rcases hekb with ⟨s, hx, rfl⟩ | hx
      · cases hx; rfl
      · cases hx
    · obtain ⟨w, n', hwn, rfl, rfl⟩ := ecKwAlg_is hkw
      refine .inr ⟨rfl, w, n', hwn, ?_⟩
      have : ekb = jek := by
        rcases hekb with ⟨_, h, -⟩ | h
        · cases h
        · cases h; rfl
      subst this
      have hkk := derive_is hH (by cases hwn <;> decide) (by cases hwn <;> decide) hder
      rw [← hkk]
      refine wrap_is hC ?_ hwr
      rcases hc3 with hs' | ⟨-, hl⟩
      · unfold storedBytes at hs'
        split at hs'
        · rename_i b hb; subst hs'; exact hcek _ hb
        · exact absurd hs' hc1
      · simp only [List.mem_cons, List.not_mem_nil, or_false] at hl
        omega

/-! ### Examples -/

theorem realValues_short (msg : PyVal) (alg enc : String) {k : Key} (hk : k.kid.truthy = false) :
    RealValues { msg := msg, dict := [("alg", .str alg), ("enc", .str enc)] } [k] none where
  dict n v hv := by
    have : v = .str alg ∨ v = .str enc := by
      simp only [PyDict.get?, List.lookup_cons, List.lookup_nil] at hv
      split at hv
      · cases hv; simp
      · split at hv
        · cases hv; simp
        · cases hv
    rcases this with rfl | rfl <;> trivial
  jwk v hv := by cases hv
  kids x hx := by rw [List.mem_singleton.mp hx]; exact distinct_of_falsy hk
  own_kid v hv := by cases hv
  kid v hv := by cases hv

theorem only_key {o : Jwe} {k k' : Key} {l : List Key} {m : KeyMgmt} {alg : String} {wk : PyVal}
    (h : EffKeys o.toJwx [k] l) (hf : FirstPicked m alg wk l k') : k' = k := by
  rcases h with ⟨-, rfl⟩ | ⟨hx, -⟩
  · obtain ⟨pre, post, hp', -⟩ := hf
    rcases pre with _ | ⟨a, pre⟩
    · simp at hp'; exact hp'.1.symm
    · simp at hp'
  · cases hx

/-- The objects of the examples. -/
def exWrapper : Jwe := { msg := .str "hello", dict := [("alg", .str "A128KW"), ("enc", .str "A256GCM")] }
@[inherit_doc exWrapper]
def exRsaer : Jwe := { msg := .str "hello", dict := rsaKw "RSA-OAEP" "A192CBC-HS384" true }
@[inherit_doc exWrapper]
def exAgreer : Jwe := { msg := .str "hello", dict := [("alg", .str "ECDH-ES+A192KW"), ("enc", .str "A128CBC-HS256")] }

theorem exWrapper_token : ∃ t, (exWrapper.encrypt toyEnv exRnd [exShared]).1 = .ok t := by
  obtain ⟨o, t, ho, ht, -⟩ := C57_total (E := toyEnv) toyCipher_lawful toyHashes_lawful exRnd_lengths .a128 .g256 "hello"
    (by decide +kernel) exShared_ok exShared_picked (by decide)
  cases ho
  exact ⟨t, ht⟩

theorem exRsaer_token : ∃ t, (exRsaer.encrypt toyEnv exRnd [exRsaPub]).1 = .ok t ∧
    ∀ rnd2, (Jwe.decrypt toyEnv {} rnd2 (utf8Encode t) [exRsaPriv]).1 = .ok (utf8Encode "hello") := by
  obtain ⟨o, t, ho, ht, hd⟩ := C58_total (E := toyEnv) toyCipher_lawful toyHashes_lawful toyRsa_lawful toyZlib_lawful
    exRnd_lengths .oaep .c192 true (.inl ⟨"hello", rfl, rfl⟩) (by decide +kernel) (by decide +kernel)
    (k := exRsaPub) (k2 := exRsaPriv) ⟨⟨_, rfl⟩, rfl⟩ ⟨⟨_, rfl⟩, rfl⟩ ⟨exRsaPriv_consistent, rfl, rfl⟩
    ⟨.inr (.inl rfl), by decide, by decide, by decide⟩ ⟨.inr (.inl rfl), by decide, by decide, by decide⟩
    (by decide) (fun c _ => ⟨_, rfl⟩)
  cases ho
  exact ⟨t, ht, fun rnd2 => hd rnd2 (by intro h; cases h)⟩

theorem exAgreer_token : ∃ t, (exAgreer.encrypt toyEnv exRnd [exEcKey]).1 = .ok t := by
  obtain ⟨X, Y, h1, h2, h3⟩ := exEcKey_ok
  have h0 : ((P256.keyPair exRnd.eph).2.map fun p => decide (p.1 = 0)) = some false := by decide +kernel
  obtain ⟨o, t, ho, ht, -⟩ := C59_total (E := toyEnv) toyCipher_lawful toyHashes_lawful exRnd_lengths (by decide +kernel)
    (by decide +kernel) .ec192 trivial .c128 (msgv := .str "hello") (.inl ⟨_, rfl, rfl⟩) (by decide +kernel) h2 h3 h3
    (by decide +kernel) h1 (by intro y hy; rw [hy] at h0; cases h0)
    ⟨.inr (.inl rfl), by decide, by decide, by decide⟩ ⟨.inr (.inl rfl), by decide, by decide, by decide⟩ (by decide)
  cases ho
  exact ⟨t, ht⟩

theorem exWrapper_real : RealValues exWrapper [exShared] none := realValues_short _ _ _ (by decide)
theorem exAgreer_real : RealValues exAgreer [exEcKey] none := realValues_short _ _ _ (by decide)
theorem exRsaer_real : RealValues exRsaer [exRsaPub] none where
  dict n v hv := by obtain ⟨s, rfl⟩ := rsaKw_values _ _ _ hv; trivial
  jwk v hv := by cases hv
  kids x hx := by rw [List.mem_singleton.mp hx]; exact distinct_of_falsy (by decide)
  own_kid v hv := by cases hv
  kid v hv := by cases hv

/-- C90_content and C90_wrap: a token under a shared key. -/
example : ∃ t s0 hdr ek ct tag, (exWrapper.encrypt toyEnv exRnd [exShared]).1 = .ok t ∧
    JweParts (utf8Encode t) s0 hdr ek (exRnd.iv 12) ct tag ∧
    ek = wrapped toyCipher ((toyHashes.hash .sha256 (ascii "k")).take 16) (exRnd.key 32) ∧
    Sealed toyEnv "A256GCM" (exRnd.key 32) (exRnd.iv 12) s0 (utf8Encode "hello") ct tag := by
  obtain ⟨t, ht⟩ := exWrapper_token
  obtain ⟨l, wk, k, h1, -, h2, h3⟩ := C90_wrap toyCipher_lawful toyHashes_lawful exRnd_lengths rfl .a128 exWrapper_real
    (by simp) ht
  cases only_key h1 h2
  obtain ⟨s0, hdr, ek, v, ct, tag, c, enc, m, hp, he, hm, ⟨n, i, hn, hc, hv⟩, hek, hs⟩ := h3 _ exShared_ok
  cases he
  cases hm
  cases (encName_lookup hn).1.symm.trans (encName_lookup EncName.g256).1
  subst hc hv
  exact ⟨t, s0, hdr, ek, ct, tag, ht, hp, hek, hs⟩

/-- C90_rsa: an RSA token, compressed. -/
example : ∃ t s0 hdr ek ct tag, (exRsaer.encrypt toyEnv exRnd [exRsaPub]).1 = .ok t ∧
    JweParts (utf8Encode t) s0 hdr ek (exRnd.iv 16) ct tag ∧
    (∃ r, HoldsRsa exRsaPub r ∧ RsaSealed toyEnv .oaep r exRnd.rsa (exRnd.key 48) ek) ∧
    ∃ z, Sealed toyEnv "A192CBC-HS384" (exRnd.key 48) (exRnd.iv 16) s0 z ct tag ∧
      Zipped toyEnv exRsaer.dict (utf8Encode "hello") z := by
  obtain ⟨t, ht, -⟩ := exRsaer_token
  have hk : HoldsRsa exRsaPub _ := ⟨⟨_, rfl⟩, rfl⟩
  obtain ⟨l, wk, k, h1, -, h2, h3⟩ := C90_rsa toyCipher_lawful exRnd_lengths rfl .oaep exRsaer_real
    (by intro k v h; cases h) ht
  cases only_key h1 h2
  obtain ⟨s0, hdr, ek, v, ct, tag, c, enc, m, z, hp, he, hm, hz, ⟨n, i, hn, hc, hv⟩, -, hek, -, hs⟩ := h3 _ hk
  cases he
  have hm' : m = utf8Encode "hello" := by
    rcases hm with ⟨s, h, rfl⟩ | h
    · cases h; rfl
    · cases h
  subst hm'
  cases (encName_lookup hn).1.symm.trans (encName_lookup EncName.c192).1
  subst hc hv
  exact ⟨t, s0, hdr, ek, ct, tag, ht, hp, ⟨_, hk, hek rfl⟩, z, hs, hz⟩

/-- C90_ecdh: an agreement with key wrap. -/
example : ∃ t s0 hdr ek ct tag z, ∃ ex ey : Nat, (exAgreer.encrypt toyEnv exRnd [exEcKey]).1 = .ok t ∧
    JweParts (utf8Encode t) s0 (.dict hdr) ek (exRnd.iv 16) ct tag ∧
    EpkHeader hdr P256 ex ey exRnd.apu exRnd.apv ∧
    P256.publicKeyFor (P256.keyPair exRnd.eph).1 = some ((ex : Int), (ey : Int)) ∧
    ek = wrapped toyCipher (agreedKey toyHashes z "A192KW" exRnd.apu exRnd.apv 24) (exRnd.key 32) ∧
    Sealed toyEnv "A128CBC-HS256" (exRnd.key 32) (exRnd.iv 16) s0 (utf8Encode "hello") ct tag := by
  obtain ⟨X, Y, -, hpt, -⟩ := exEcKey_ok
  obtain ⟨t, ht⟩ := exAgreer_token
  obtain ⟨l, wk, k, h1, -, h2, h3⟩ := C90_ecdh toyCipher_lawful toyHashes_lawful exRnd_lengths rfl .ec192 trivial
    exAgreer_real (by intro b h; cases h) ht
  cases only_key h1 h2
  obtain ⟨s0, hdr, ek, v, ct, tag, c, c0, i0, b0, enc, pt, apu, apv, z, d, ex, ey, hp, he, hm, hs, hb, hi,
    ⟨n, i, hn, hc, hv⟩, hu, hw, hepk, hpub, hd, -, -, hfin⟩ := h3 P256 X Y hpt (by intro e h; cases h)
  cases he
  have hm' : pt = utf8Encode "hello" := by
    rcases hm with ⟨s, h, rfl⟩ | h
    · cases h; rfl
    · cases h
  subst hm'
  cases (encName_lookup hn).1.symm.trans (encName_lookup EncName.c128).1
  have hb0 : b0 = [] := by
    rcases hb with h | h
    · cases h
    · exact h.1
  have hi0 : i0 = [] := by
    rcases hi with h | h
    · cases h
    · exact h.1
  cases hu.1 rfl
  cases hw.1 rfl
  subst hb0 hi0 hv hc
  have := hd rfl
  subst this
  rcases hfin with ⟨h, -⟩ | ⟨rfl, w, n, hwn, hek⟩
  · exact absurd h (by decide)
  · have hww : w = "A192KW" ∧ n = 24 := by
      generalize ha : "ECDH-ES+A192KW" = a at hwn
      cases hwn
      · exact absurd ha (by decide)
      · exact ⟨rfl, rfl⟩
      · exact absurd ha (by decide)
    obtain ⟨rfl, rfl⟩ := hww
    exact ⟨t, s0, hdr, ek, ct, tag, z, ex, ey, ht, hp, hepk, hpub, hek, hs⟩

end Verif
