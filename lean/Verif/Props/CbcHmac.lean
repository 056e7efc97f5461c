import Verif.Proofs.Cbc
import Verif.Spec.Extra
/-
Properties C38–C40: PKCS#5 padding and AES-CBC-HMAC (`/repo/src/jwkest/extra.py:32-137`).
-/

namespace Verif
open Spec

/-! ### C38 -/

/-- The padded length is the next multiple of 16 (a whole block is added to a full one). -/
theorem C38_pad_length (x : Bytes) :
    (pkcs5pad x).length = (x.length / 16 + 1) * 16 ∧ x <+: pkcs5pad x := by
  unfold pkcs5pad
  have hn : ¬ (16 - x.length % 16 = 0) := by omega
  simp only [hn, if_false]
  refine ⟨by rw [List.length_append, List.length_replicate]; omega, List.prefix_append _ _⟩

/-- Trimming a padded string gives the original. -/
theorem C38_roundtrip (x : Bytes) : pkcs5trim (pkcs5pad x) = .ok x := by
  unfold pkcs5pad pkcs5trim
  have hn : ¬ (16 - x.length % 16 = 0) := by omega
  simp only [hn, if_false]
  generalize hm : 16 - x.length % 16 = n at *
  have hn2 : n ≤ 16 := by omega
  rw [List.getLast?_append, List.getLast?_replicate, if_neg hn]
  simp only [Option.some_or, UInt8.toNat_ofNat']
  have e : n % 2 ^ 8 = n := by omega
  rw [e, if_neg (by omega), if_neg hn]
  congr 1
  rw [List.length_append, List.length_replicate, Nat.add_sub_cancel, List.take_left' rfl]

/-- Exact behaviour of `pkcs5trim` on every input: it raises on the empty string and on a last byte
above 16, and otherwise returns a prefix shortened by the last byte — except for a last byte 0,
where it returns the empty string instead of rejecting. -/
theorem C38_trim (x : Bytes) :
    (x = [] → pkcs5trim x = .error .structError) ∧
    ∀ y c, x = y ++ [c] →
      (16 < c.toNat → pkcs5trim x = .error .generic) ∧
      (c = 0 → pkcs5trim x = .ok []) ∧
      (c ≠ 0 → c.toNat ≤ 16 → ∃ t, pkcs5trim x = .ok t ∧ t <+: x ∧ t ≠ x ∧
        t.length = x.length - c.toNat) := by
  constructor
  · rintro rfl; rfl
  · rintro y c rfl
    unfold pkcs5trim
    rw [List.getLast?_append]
    simp only [List.getLast?_singleton, Option.some_or]
    refine ⟨fun h => by rw [if_pos h], ?_, ?_⟩
    · rintro rfl; rfl
    · intro h0 h16
      have hc : c.toNat ≠ 0 := fun h => h0 (UInt8.toNat_inj.mp (by simpa using h))
      rw [if_neg (by omega), if_neg hc]
      refine ⟨_, rfl, List.take_prefix _ _, ?_, ?_⟩
      · intro h
        have := congrArg List.length h
        simp at this
        omega
      · rw [List.length_take]; omega

/-- Padding bytes other than the last are not checked: two different strings trim to the same
text (so trimming does not validate the padding). -/
theorem C38_unchecked : pkcs5trim ([5, 9, 9] : Bytes) = .ok [] ∧
    pkcs5trim ([5, 1, 2] : Bytes) = .ok [5] ∧ pkcs5trim ([5, 2, 2] : Bytes) = .ok [5] := by decide

/-! ### C39 -/

theorem getKeys_ok {key iv : Bytes} {n s : Nat} {h : HashAlg} (hp : (n, s, h) ∈ cbcHmacParams)
    (hkey : key.length = n) (hiv : iv.length = 16) :
    getKeysSeclenDgst key iv = .ok (key.take s, key.drop s, s, h) ∧ aesKeyOk (key.drop s) ∧
      s ≤ h.size := by
  unfold getKeysSeclenDgst
  rw [if_neg (by omega)]
  simp only [cbcHmacParams, List.mem_cons, Prod.mk.injEq, List.not_mem_nil, or_false] at hp
  rcases hp with ⟨rfl, rfl, rfl⟩ | ⟨rfl, rfl, rfl⟩ | ⟨rfl, rfl, rfl⟩ <;>
    simp [hkey, lenmet, aesKeyOk, HashAlg.size]

/-- Round trip, ciphertext and tag sizes. -/
theorem C39_roundtrip (C : BlockCipher) (H : Hashes) (hC : C.Lawful) (hH : H.Lawful)
    (key iv aad pt : Bytes) (n s : Nat) (h : HashAlg) (hp : (n, s, h) ∈ cbcHmacParams)
    (hkey : key.length = n) (hiv : iv.length = 16) (haad : aad.length < 2 ^ 61) :
    ∃ ct tag, aesCbcHmacEncrypt C H key iv aad pt = .ok (ct, tag) ∧
      ct.length = (pt.length / 16 + 1) * 16 ∧ tag.length = s ∧
      aesCbcHmacDecrypt C H key iv aad ct tag = .ok pt := by
  obtain ⟨hg, hke, hs⟩ := getKeys_ok hp hkey hiv
  have hpl := (C38_pad_length pt).1
  obtain ⟨ct, e1, e2, e3⟩ := cbc_roundtrip hC (key := key.drop s) (iv := iv) (data := pkcs5pad pt)
    hke hiv (by rw [hpl]; omega)
  have hq : packQ (8 * aad.length) = .ok (natToBytesW 8 (8 * aad.length)) := by
    rw [packQ, if_pos (by omega)]
  refine ⟨ct, (H.hmac h (key.take s) (aad ++ iv ++ ct ++ natToBytesW 8 (8 * aad.length))).take s,
    ?_, by rw [e2, hpl], ?_, ?_⟩
  · unfold aesCbcHmacEncrypt cbcHmacTag
    simp only [hg, e1, hq, Bind.bind, Except.bind]
  · rw [List.length_take, hH.hmac_length]; omega
  · unfold aesCbcHmacDecrypt cbcHmacTag
    simp only [hg, e3, hq, Bind.bind, Except.bind, if_true, C38_roundtrip]

example : ∃ ct tag, aesCbcHmacEncrypt toyCipher toyHashes (List.replicate 32 1) (List.replicate 16 2)
    (ascii "eyJ") (ascii "hello") = .ok (ct, tag) ∧ ct.length = 16 ∧ tag.length = 16 ∧
    aesCbcHmacDecrypt toyCipher toyHashes (List.replicate 32 1) (List.replicate 16 2) (ascii "eyJ")
      ct tag = .ok (ascii "hello") :=
  C39_roundtrip _ _ toyCipher_lawful toyHashes_lawful _ _ _ _ 32 16 .sha256 (by decide) (by decide)
    (by decide) (by decide)

/-- Any other key or IV length is refused by both directions. -/
theorem C39_bad_sizes (C : BlockCipher) (H : Hashes) (key iv aad x tag : Bytes)
    (h : iv.length ≠ 16 ∨ ∀ p ∈ cbcHmacParams, key.length ≠ p.1) :
    aesCbcHmacEncrypt C H key iv aad x = .error .generic ∧
    aesCbcHmacDecrypt C H key iv aad x tag = .error .generic := by
  have hg : getKeysSeclenDgst key iv = .error .generic := by
    unfold getKeysSeclenDgst
    split
    · rfl
    · rename_i hiv
      rcases h with h | h
      · exact absurd h hiv
      · have h1 := h (32, 16, .sha256) (by decide)
        have h2 := h (48, 24, .sha384) (by decide)
        have h3 := h (64, 32, .sha512) (by decide)
        simp only at h1 h2 h3
        have : lenmet key.length = none := by
          unfold lenmet
          split <;> simp_all
        rw [this]
  unfold aesCbcHmacEncrypt aesCbcHmacDecrypt
  simp [hg, Bind.bind, Except.bind]

/-! ### C40 -/

/-- Decryption returns only if the tag is the truncated HMAC (under the first half of the key) of
the RFC 7518 MAC input. -/
theorem C40_tag (C : BlockCipher) (H : Hashes) (key iv aad ct tag pt : Bytes)
    (h : aesCbcHmacDecrypt C H key iv aad ct tag = .ok pt) :
    ∃ s a, (key.length, s, a) ∈ cbcHmacParams ∧ iv.length = 16 ∧ aad.length < 2 ^ 61 ∧
      tag = (H.hmac a (key.take s) (macInput aad iv ct)).take s := by
  unfold aesCbcHmacDecrypt at h
  cases hg : getKeysSeclenDgst key iv with
  | error e => rw [hg] at h; simp [Bind.bind, Except.bind] at h
  | ok v =>
    obtain ⟨ka, ke, s, a⟩ := v
    rw [hg] at h
    unfold getKeysSeclenDgst at hg
    split at hg
    · simp at hg
    rename_i hiv
    have hiv : iv.length = 16 := by omega
    cases hl : lenmet key.length with
    | none => rw [hl] at hg; simp at hg
    | some sa =>
      obtain ⟨s', a'⟩ := sa
      rw [hl] at hg
      simp only [Except.ok.injEq, Prod.mk.injEq] at hg
      obtain ⟨rfl, rfl, rfl, rfl⟩ := hg
      simp only [Bind.bind, Except.bind, cbcHmacTag, packQ] at h
      by_cases hq : 8 * aad.length < 2 ^ 64
      case neg => rw [if_neg hq] at h; simp at h
      simp only [if_pos hq] at h
      split at h
      · rename_i ht
        refine ⟨s', a', ?_, hiv, by omega, ht.symm⟩
        unfold lenmet at hl
        split at hl <;> simp_all [cbcHmacParams]
      · simp at h

theorem natToBytesW_inj {w a b : Nat} (ha : a < 256 ^ w) (hb : b < 256 ^ w)
    (h : natToBytesW w a = natToBytesW w b) : a = b := by
  have := congrArg bytesToNat h
  rwa [bytesToNat_natToBytesW, bytesToNat_natToBytesW, Nat.mod_eq_of_lt ha,
    Nat.mod_eq_of_lt hb] at this

/-- The MAC input determines (aad, iv, ciphertext). -/
theorem C40_injective (aad iv ct aad' iv' ct' : Bytes) (hiv : iv.length = 16)
    (hiv' : iv'.length = 16) (ha : aad.length < 2 ^ 61) (ha' : aad'.length < 2 ^ 61)
    (h : macInput aad iv ct = macInput aad' iv' ct') : aad = aad' ∧ iv = iv' ∧ ct = ct' := by
  unfold macInput at h
  obtain ⟨h1, h2⟩ := List.append_inj' h (by rw [natToBytesW_length, natToBytesW_length])
  have h3 := natToBytesW_inj (by rw [pow64]; omega) (by rw [pow64]; omega) h2
  rw [List.append_assoc, List.append_assoc] at h1
  obtain ⟨h4, h5⟩ := List.append_inj h1 (by omega)
  obtain ⟨h6, h7⟩ := List.append_inj h5 (by omega)
  exact ⟨h4, h6, h7⟩

/-- An accepted modification of aad, iv or ciphertext under the same key and tag is a collision of
the truncated MAC. -/
theorem C40_collision (C : BlockCipher) (H : Hashes) (key iv aad ct iv' aad' ct' tag pt pt' : Bytes)
    (h : aesCbcHmacDecrypt C H key iv aad ct tag = .ok pt)
    (h' : aesCbcHmacDecrypt C H key iv' aad' ct' tag = .ok pt')
    (hne : (aad, iv, ct) ≠ (aad', iv', ct')) :
    ∃ s a m m', (key.length, s, a) ∈ cbcHmacParams ∧ m ≠ m' ∧
      (H.hmac a (key.take s) m).take s = (H.hmac a (key.take s) m').take s := by
  obtain ⟨s, a, hm, hiv, ha, ht⟩ := C40_tag C H key iv aad ct tag pt h
  obtain ⟨s', a', hm', hiv', ha', ht'⟩ := C40_tag C H key iv' aad' ct' tag pt' h'
  have : s = s' ∧ a = a' := by
    simp only [cbcHmacParams, List.mem_cons, Prod.mk.injEq, List.not_mem_nil, or_false] at hm hm'
    rcases hm with ⟨h1, rfl, rfl⟩ | ⟨h1, rfl, rfl⟩ | ⟨h1, rfl, rfl⟩ <;>
      rcases hm' with ⟨h2, rfl, rfl⟩ | ⟨h2, rfl, rfl⟩ | ⟨h2, rfl, rfl⟩ <;>
      first | exact ⟨rfl, rfl⟩ | omega
  obtain ⟨rfl, rfl⟩ := this
  refine ⟨s, a, macInput aad iv ct, macInput aad' iv' ct', hm, ?_, by rw [← ht, ← ht']⟩
  intro he
  obtain ⟨e1, e2, e3⟩ := C40_injective _ _ _ _ _ _ hiv hiv' ha ha' he
  exact hne (by rw [e1, e2, e3])

/-- Nothing is decrypted before the tag matches: with a wrong tag the outcome is
`VerificationFailure` whatever the block cipher and the ciphertext are. -/
theorem C40_no_decrypt (C : BlockCipher) (H : Hashes) (key iv aad ct tag : Bytes)
    (s : Nat) (a : HashAlg) (hp : (key.length, s, a) ∈ cbcHmacParams) (hiv : iv.length = 16)
    (haad : aad.length < 2 ^ 61)
    (hne : tag ≠ (H.hmac a (key.take s) (macInput aad iv ct)).take s) :
    aesCbcHmacDecrypt C H key iv aad ct tag = .error .verificationFailure := by
  obtain ⟨hg, _, _⟩ := getKeys_ok hp rfl hiv
  have hq : packQ (8 * aad.length) = .ok (natToBytesW 8 (8 * aad.length)) := by
    rw [packQ, if_pos (by omega)]
  unfold aesCbcHmacDecrypt cbcHmacTag
  simp only [hg, hq, Bind.bind, Except.bind]
  rw [if_neg]
  exact fun h => hne h.symm

example : aesCbcHmacDecrypt toyCipher toyHashes (List.replicate 32 1) (List.replicate 16 2) [] []
    [] = .error .verificationFailure :=
  C40_no_decrypt _ _ _ _ _ _ _ 16 .sha256 (by decide) (by decide) (by decide) (by decide +kernel)

end Verif
