import Verif.Proofs.Base64
/-
Properties C01–C04: base64url helpers `b64e`, `b64d` (`/repo/src/jwkest/__init__.py:141-183`).
-/

namespace Verif
open Spec

/-- `b64e` output is the RFC 4648 base64url text of its input (alphabet, bits, zero fill). -/
theorem C02_rfc4648 (b : Bytes) : IsB64Url b (b64e b) := by
  rw [b64e_eq]
  exact ⟨enc'_alpha b, enc'_bits b⟩

example : IsB64Url [255, 0, 62] (ascii "_wA-") := by
  have h := C02_rfc4648 [255, 0, 62]
  rwa [show b64e [255, 0, 62] = ascii "_wA-" by decide] at h

theorem isB64Url_length {b t : Bytes} (h : IsB64Url b t) : t.length = (4 * b.length + 2) / 3 := by
  obtain ⟨_, k, hk, e⟩ := h
  have := congrArg List.length e
  rw [List.length_append, sextetBits_flat_length, byteBits_flat_length, List.length_replicate] at this
  omega

/-- The specification determines the text: whatever satisfies it is what `b64e` returns. -/
theorem C02_unique (b t : Bytes) (h : IsB64Url b t) : t = b64e b := by
  have h2 := C02_rfc4648 b
  have l1 := isB64Url_length h
  have l2 := isB64Url_length h2
  obtain ⟨a1, k1, hk1, e1⟩ := h
  obtain ⟨a2, k2, hk2, e2⟩ := h2
  have n1 := congrArg List.length e1
  have n2 := congrArg List.length e2
  rw [List.length_append, sextetBits_flat_length, byteBits_flat_length, List.length_replicate]
    at n1 n2
  have hk : k1 = k2 := by omega
  subst hk
  exact (flatMap_prefix_inj sextetBits 6 sextetBits_length (P := (· ∈ urlAlphabet))
    (fun _ _ => sextetBits_inj) t (b64e b) [] [] a1 a2 (by omega) (by rw [e1, e2])).1

/-- Length `⌈4n/3⌉`, no padding character. -/
theorem C02_length (b : Bytes) :
    (b64e b).length = (4 * b.length + 2) / 3 ∧ (61 : UInt8) ∉ b64e b := by
  refine ⟨isB64Url_length (C02_rfc4648 b), fun h => ?_⟩
  exact (b64Val_fromUrl _ ((C02_rfc4648 b).1 _ h)).2.2.1 rfl

theorem b64d_alpha {d : Bytes} (hd : ∀ c ∈ d, c ∈ urlAlphabet) :
    b64d d = if d.length % 4 = 1 then .error .badSyntax
      else .ok (dec' (d.map urlAlphabet.idxOf)) := by
  have := b64d_shape d [] 0 hd (.inl rfl)
  simp only [List.append_nil, List.replicate_zero, PadOk] at this
  rw [this]
  by_cases h : d.length % 4 = 1 <;> simp [h]

/-- Round trip for every byte string. -/
theorem C01_roundtrip (b : Bytes) : b64d (b64e b) = .ok b := by
  have h := C02_rfc4648 b
  have hl := isB64Url_length h
  rw [b64d_alpha h.1, if_neg (by omega)]
  congr 1
  refine decodesTo_unique (dec'_bits _ h.1 (by omega)) ?_
  obtain ⟨_, k, hk, e⟩ := h
  exact ⟨_, by rw [List.length_replicate]; omega, e⟩

/-- Different inputs have different texts. -/
theorem C02_injective (a b : Bytes) (h : b64e a = b64e b) : a = b := by
  have h1 := C01_roundtrip a
  rw [h, C01_roundtrip b] at h1
  simpa using h1.symm

/-- The exact accept set and result of `b64d`: alphabet text with tolerable padding — or, the
defect, such text with a newline before at least one `=` — and the result is what the alphabet
characters spell. -/
theorem C03_accepts_iff (b out : Bytes) :
    b64d b = .ok out ↔ ∃ d, (CleanText b d ∨ NewlineText b d) ∧ DecodesTo d out := by
  constructor
  · intro h
    obtain ⟨k, hb, hl⟩ := rstrip_spec 61 b
    by_cases hre : b64ReMatch (rstrip 61 b) = true
    · obtain ⟨d, nl, e, hd, hnl⟩ := (b64ReMatch_iff _).mp hre
      rw [e] at hb
      rw [hb, b64d_shape d nl k hd hnl] at h
      split at h
      · rename_i hp
        refine ⟨d, ?_, ?_⟩
        · rcases hnl with rfl | rfl
          · exact .inl ⟨k, by simpa using hb, hd, hp.2⟩
          · refine .inr ⟨k, hb, hd, by simpa using hp.1, hp.2⟩
        · have : d.length % 4 ≠ 1 := by have := hp.2; unfold PadOk at this; omega
          have h3 := dec'_bits d hd this
          simp only [Except.ok.injEq] at h
          rwa [h] at h3
      · split at h <;> simp at h
    · simp [b64d, hre] at h
  · rintro ⟨d, hc, hdec⟩
    have key : ∀ nl k, (nl = [] ∨ nl = [10]) → (∀ c ∈ d, c ∈ urlAlphabet) →
        (nl = [] ∨ 1 ≤ k) → PadOk d.length k → b64d (d ++ nl ++ List.replicate k 61) = .ok out := by
      intro nl k hnl hd h1 hp
      rw [b64d_shape d nl k hd hnl, if_pos ⟨h1, hp⟩]
      have : d.length % 4 ≠ 1 := by unfold PadOk at hp; omega
      rw [decodesTo_unique hdec (dec'_bits d hd this)]
    rcases hc with ⟨k, rfl, hd, hp⟩ | ⟨k, rfl, hd, hk, hp⟩
    · simpa using key [] k (.inl rfl) hd (.inl rfl) hp
    · exact key [10] k (.inr rfl) hd (.inr hk) hp

/-- Whatever `b64d` raises is `BadSyntax` or `binascii.Error`. -/
theorem C03_errors (b : Bytes) (e : Exc) (h : b64d b = .error e) :
    e = .badSyntax ∨ e = .binasciiError := by
  obtain ⟨k, hb, hl⟩ := rstrip_spec 61 b
  by_cases hre : b64ReMatch (rstrip 61 b) = true
  · obtain ⟨d, nl, e', hd, hnl⟩ := (b64ReMatch_iff _).mp hre
    rw [e'] at hb
    rw [hb, b64d_shape d nl k hd hnl] at h
    split at h
    · simp at h
    · split at h <;> simp at h <;> simp [← h]
  · simp [b64d, hre] at h; simp [← h]

/-- On text without `=` (every part of a compact token as the standards produce it) the documented
behaviour holds exactly: accepted iff alphabet characters of a possible length. -/
theorem C03_unpadded (b : Bytes) (h61 : (61 : UInt8) ∉ b) :
    (b64d b).Returns ↔ (∀ c ∈ b, c ∈ urlAlphabet) ∧ b.length % 4 ≠ 1 := by
  constructor
  · rintro ⟨out, h⟩
    obtain ⟨d, ⟨k, rfl, hd, hp⟩ | ⟨k, rfl, hd, hk, hp⟩, _⟩ := (C03_accepts_iff _ _).mp h
    · have : k = 0 := by
        cases k with
        | zero => rfl
        | succ k => exact absurd (by simp [List.replicate_succ]) h61
      subst this
      refine ⟨by simpa using hd, ?_⟩
      unfold PadOk at hp; simp; omega
    · exact absurd (by cases k <;> simp_all [List.replicate_succ]) h61
  · rintro ⟨hd, hl⟩
    rw [b64d_alpha hd, if_neg hl]
    exact ⟨_, rfl⟩

example : (61 : UInt8) ∉ ascii "_wA-" ∧ (b64d (ascii "_wA-")).Returns :=
  ⟨by decide, [255, 0, 62], by decide⟩

/-- The documented claim ("raises if the string contains invalid characters") is false of the code:
a newline followed by `=` passes, because `$` matches before a final newline. -/
theorem C03_violated : ∃ b out, b64d b = .ok out ∧ ∀ d, ¬ CleanText b d := by
  refine ⟨[65, 65, 65, 65, 10, 61], [0, 0, 0], by decide, ?_⟩
  rintro d ⟨k, hb, hd, -⟩
  have h10 : (10 : UInt8) ∈ d := by
    have : (10 : UInt8) ∈ d ++ List.replicate k 61 := by rw [← hb]; decide
    rcases List.mem_append.mp this with h | h
    · exact h
    · exact absurd (List.eq_of_mem_replicate h) (by decide)
  exact (b64Val_fromUrl _ (hd _ h10)).2.2.2.1 rfl

/-- Two unpadded texts with the same decoding have the same length, agree on all characters but
the last, and are equal if the decoded length is a multiple of three. -/
theorem C04_same_bytes (d1 d2 out : Bytes) (n1 : (61 : UInt8) ∉ d1) (n2 : (61 : UInt8) ∉ d2)
    (h1 : b64d d1 = .ok out) (h2 : b64d d2 = .ok out) :
    d1.length = d2.length ∧ d1.dropLast = d2.dropLast ∧ (out.length % 3 = 0 → d1 = d2) := by
  obtain ⟨a1, l1⟩ := (C03_unpadded d1 n1).mp ⟨_, h1⟩
  obtain ⟨a2, l2⟩ := (C03_unpadded d2 n2).mp ⟨_, h2⟩
  have dd : ∀ d, (∀ c ∈ d, c ∈ urlAlphabet) → d.length % 4 ≠ 1 → b64d d = .ok out →
      DecodesTo d out := by
    intro d a l h
    rw [b64d_alpha a, if_neg l] at h
    have := dec'_bits d a l
    simp only [Except.ok.injEq] at h
    rwa [h] at this
  have e1 := dd d1 a1 l1 h1
  have e2 := dd d2 a2 l2 h2
  have m1 := decodesTo_length e1
  have m2 := decodesTo_length e2
  have hlen : d1.length = d2.length := by
    have c1 : d1.length % 4 = 0 ∨ d1.length % 4 = 2 ∨ d1.length % 4 = 3 := by omega
    have c2 : d2.length % 4 = 0 ∨ d2.length % 4 = 2 ∨ d2.length % 4 = 3 := by omega
    rcases c1 with c1 | c1 | c1 <;> rcases c2 with c2 | c2 | c2 <;> omega
  obtain ⟨r1, _, e1⟩ := e1
  obtain ⟨r2, _, e2⟩ := e2
  have k1 := congrArg List.length e1
  have k2 := congrArg List.length e2
  rw [List.length_append, sextetBits_flat_length, byteBits_flat_length] at k1 k2
  have inj := flatMap_prefix_inj sextetBits 6 sextetBits_length (P := (· ∈ urlAlphabet))
    (fun _ _ => sextetBits_inj)
  refine ⟨hlen, ?_, ?_⟩
  · have p1 : ∀ (d : Bytes) (r : List Bool), d.flatMap sextetBits = out.flatMap byteBits ++ r →
        d.dropLast.length * 6 ≤ 8 * out.length →
        d.dropLast.flatMap sextetBits = (out.flatMap byteBits).take (6 * d.dropLast.length) := by
      intro d r e hle
      have q : d.dropLast.flatMap sextetBits <+: d.flatMap sextetBits := by
        rcases List.eq_nil_or_concat d with rfl | ⟨l, c, rfl⟩
        · simp
        · simp [List.flatMap_append]
      rw [e] at q
      rw [List.prefix_iff_eq_take.mp q, sextetBits_flat_length, List.take_append_of_le_length]
      rw [byteBits_flat_length]; omega
    have dl1 : d1.dropLast.length = d1.length - 1 := by simp
    have dl2 : d2.dropLast.length = d2.length - 1 := by simp
    exact (inj d1.dropLast d2.dropLast [] [] (fun c h => a1 c (List.dropLast_subset _ h))
      (fun c h => a2 c (List.dropLast_subset _ h)) (by omega)
      (by rw [p1 d1 r1 e1 (by omega), p1 d2 r2 e2 (by omega), dl1, dl2, hlen])).1
  · intro h3
    have : r1 = [] := List.eq_nil_of_length_eq_zero (by omega)
    have : r2 = [] := List.eq_nil_of_length_eq_zero (by omega)
    subst r1 r2
    exact (inj d1 d2 [] [] a1 a2 hlen (by rw [e1, e2])).1

/-- The last character can be changed to one that differs only in its lowest bit. -/
theorem exists_sibling (c : UInt8) (h : c ∈ urlAlphabet) :
    ∃ c' ∈ urlAlphabet, c' ≠ c ∧ (sextetBits c').dropLast = (sextetBits c).dropLast := by
  have : ∀ c ∈ urlAlphabet, ∃ c' ∈ urlAlphabet, c' ≠ c ∧
      (sextetBits c').dropLast = (sextetBits c).dropLast := by decide +kernel
  exact this c h

/-- Whenever the decoded length is not a multiple of three a second spelling exists: token text is
malleable. -/
theorem C04_malleable (d out : Bytes) (n1 : (61 : UInt8) ∉ d) (h1 : b64d d = .ok out)
    (h3 : out.length % 3 ≠ 0) : ∃ d', d' ≠ d ∧ (61 : UInt8) ∉ d' ∧ b64d d' = .ok out := by
  obtain ⟨a1, l1⟩ := (C03_unpadded d n1).mp ⟨_, h1⟩
  have e : DecodesTo d out := by
    rw [b64d_alpha a1, if_neg l1] at h1
    have := dec'_bits d a1 l1
    simp only [Except.ok.injEq] at h1
    rwa [h1] at this
  have m1 := decodesTo_length e
  rcases List.eq_nil_or_concat d with rfl | ⟨l, c, rfl⟩
  · simp at m1; simp [m1] at h3
  obtain ⟨c', hc', hne, hbits⟩ := exists_sibling c (a1 c (by simp))
  have a2 : ∀ x ∈ l ++ [c'], x ∈ urlAlphabet := by
    intro x hx
    rcases List.mem_append.mp hx with h | h
    · exact a1 x (by simp [h])
    · simp at h; exact h ▸ hc'
  obtain ⟨r, hr, e⟩ := e
  have k1 := congrArg List.length e
  rw [List.length_append, sextetBits_flat_length, byteBits_flat_length] at k1
  refine ⟨l ++ [c'], ?_, ?_, ?_⟩
  · simpa using hne
  · intro h; exact (b64Val_fromUrl _ (a2 _ h)).2.2.1 rfl
  · rw [C03_accepts_iff]
    refine ⟨l ++ [c'], .inl ⟨0, by simp, a2, ?_⟩, ?_⟩
    · simp at l1; simp [PadOk]; omega
    · have hrne : r ≠ [] := by
        rintro rfl
        simp at k1; simp at m1; omega
      have split6 : ∀ x, sextetBits x = (sextetBits x).dropLast ++ [bit 0 (urlAlphabet.idxOf x)] := by
        intro x; rfl
      refine ⟨r.dropLast ++ [bit 0 (urlAlphabet.idxOf c')], by simp; omega, ?_⟩
      have e' : l.flatMap sextetBits ++ (sextetBits c).dropLast =
          out.flatMap byteBits ++ r.dropLast := by
        have := congrArg List.dropLast e
        rw [List.dropLast_append_of_ne_nil hrne] at this
        rw [← this]
        simp only [List.concat_eq_append, List.flatMap_append, List.flatMap_cons,
          List.flatMap_nil, List.append_nil]
        rw [List.dropLast_append_of_ne_nil (by simp [sextetBits])]
      simp only [List.flatMap_append, List.flatMap_cons, List.flatMap_nil, List.append_nil]
      rw [split6 c', hbits, ← List.append_assoc, e', List.append_assoc]

/-- Both spellings of the one-byte string `b"\x00"`. -/
example : b64d (ascii "AA") = .ok [0] ∧ b64d (ascii "AB") = .ok [0] := by decide

end Verif
