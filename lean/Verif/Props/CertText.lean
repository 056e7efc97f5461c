import Verif.Props.Cert
import Verif.Spec.Pem
/-
C127: certificates as text.
-/

namespace Verif

open Spec

/-! ### Base64 -/

theorem a2b_tail (d tail : Bytes) : a2bLoop (b64encode d ++ tail) 0 0 0 =
    if d.length % 3 = 0 then (a2bLoop tail 0 0 0).map (d ++ ·) else .ok d := by
  fun_induction b64encode d with
  | case1 => simp; cases a2bLoop tail 0 0 0 <;> rfl
  | case2 a =>
    have := a.toNat_lt
    obtain ⟨h1, h1', -⟩ := b64Val_char (a.toNat / 4) (by omega)
    obtain ⟨h2, h2', -⟩ := b64Val_char (a.toNat % 4 * 16) (by omega)
    have e : UInt8.ofNat (a.toNat / 4 * 4 + a.toNat % 4 * 16 / 16) = a := by
      have : a.toNat / 4 * 4 + a.toNat % 4 * 16 / 16 = a.toNat := by omega
      rw [this]; exact UInt8.ofNat_toNat
    simp only [List.cons_append, List.nil_append, a2bLoop, h1, h1', h2, h2', if_false, if_true, e, Nat.one_ne_zero]
    simp [Except.map]
  | case3 a b =>
    have := a.toNat_lt
    have := b.toNat_lt
    obtain ⟨h1, h1', -⟩ := b64Val_char (a.toNat / 4) (by omega)
    obtain ⟨h2, h2', -⟩ := b64Val_char (a.toNat % 4 * 16 + b.toNat / 16) (by omega)
    obtain ⟨h3, h3', -⟩ := b64Val_char (b.toNat % 16 * 4) (by omega)
    have e : UInt8.ofNat (a.toNat / 4 * 4 + (a.toNat % 4 * 16 + b.toNat / 16) / 16) = a := by
      have : a.toNat / 4 * 4 + (a.toNat % 4 * 16 + b.toNat / 16) / 16 = a.toNat := by omega
      rw [this]; exact UInt8.ofNat_toNat
    have e2 : UInt8.ofNat ((a.toNat % 4 * 16 + b.toNat / 16) % 16 * 16 + b.toNat % 16 * 4 / 4) = b := by
      have : (a.toNat % 4 * 16 + b.toNat / 16) % 16 * 16 + b.toNat % 16 * 4 / 4 = b.toNat := by omega
      rw [this]; exact UInt8.ofNat_toNat
    simp only [List.cons_append, List.nil_append, a2bLoop, h1, h1', h2, h2', h3, h3', if_false, if_true, e, e2, Nat.one_ne_zero,
      OfNat.ofNat_ne_zero, OfNat.ofNat_ne_one]
    simp [Except.map]
  | case4 a b c rest ih =>
    have := a.toNat_lt
    have := b.toNat_lt
    have := c.toNat_lt
    obtain ⟨h1, h1', -⟩ := b64Val_char (a.toNat / 4) (by omega)
    obtain ⟨h2, h2', -⟩ := b64Val_char (a.toNat % 4 * 16 + b.toNat / 16) (by omega)
    obtain ⟨h3, h3', -⟩ := b64Val_char (b.toNat % 16 * 4 + c.toNat / 64) (by omega)
    obtain ⟨h4, h4', -⟩ := b64Val_char (c.toNat % 64) (by omega)
    have e : UInt8.ofNat (a.toNat / 4 * 4 + (a.toNat % 4 * 16 + b.toNat / 16) / 16) = a := by
      have : a.toNat / 4 * 4 + (a.toNat % 4 * 16 + b.toNat / 16) / 16 = a.toNat := by omega
      rw [this]; exact UInt8.ofNat_toNat
    have e2 : UInt8.ofNat ((a.toNat % 4 * 16 + b.toNat / 16) % 16 * 16 + (b.toNat % 16 * 4 + c.toNat / 64) / 4) = b := by
      have : (a.toNat % 4 * 16 + b.toNat / 16) % 16 * 16 + (b.toNat % 16 * 4 + c.toNat / 64) / 4 = b.toNat := by omega
      rw [this]; exact UInt8.ofNat_toNat
    have e3 : UInt8.ofNat ((b.toNat % 16 * 4 + c.toNat / 64) % 4 * 64 + c.toNat % 64) = c := by
      have : (b.toNat % 16 * 4 + c.toNat / 64) % 4 * 64 + c.toNat % 64 = c.toNat := by omega
      rw [this]; exact UInt8.ofNat_toNat
    simp only [List.cons_append, a2bLoop, h1, h1', h2, h2', h3, h3', h4, h4', if_false, if_true, e, e2, e3, Nat.one_ne_zero,
      OfNat.ofNat_ne_zero, OfNat.ofNat_ne_one, ih]
    have hl : (a :: b :: c :: rest).length % 3 = rest.length % 3 := by simp only [List.length_cons]; omega
    rw [hl]
    norm_num
    split
    · cases a2bLoop tail 0 0 0 <;> rfl
    · rfl

theorem a2bLoop_err : ∀ (s : Bytes) (q l p : Nat) (e : Exc), a2bLoop s q l p = .error e → e = .binasciiError := by
  intro s
  induction s with
  | nil =>
    intro q l p e h
    unfold a2bLoop at h
    split at h <;> cases h
    rfl
  | cons c s ih =>
    intro q l p e h
    have hm : ∀ {x : PyM Bytes} {f : Bytes → Bytes}, x.map f = .error e → x = .error e := by
      intro x f h
      cases x with
      | error => exact h
      | ok => cases h
    unfold a2bLoop at h
    split at h
    · split at h
      · split at h
        · cases h
        · exact ih _ _ _ _ h
      · exact ih _ _ _ _ h
    · split at h
      · exact ih _ _ _ _ h
      · split at h
        · exact ih _ _ _ _ h
        · split at h
          · exact ih _ _ _ _ (hm h)
          · split at h
            · exact ih _ _ _ _ (hm h)
            · exact ih _ _ _ _ (hm h)

theorem enc'_mem (d : Bytes) : ∀ c ∈ enc' d, ∃ n < 64, c = b64Char n := by
  fun_induction enc' d with
  | case1 => simp
  | case2 a =>
    have := a.toNat_lt
    simp only [List.mem_cons, List.not_mem_nil, or_false, forall_eq_or_imp, forall_eq]
    exact ⟨⟨_, by omega, rfl⟩, ⟨_, by omega, rfl⟩⟩
  | case3 a b =>
    have := a.toNat_lt
    have := b.toNat_lt
    simp only [List.mem_cons, List.not_mem_nil, or_false, forall_eq_or_imp, forall_eq]
    exact ⟨⟨_, by omega, rfl⟩, ⟨_, by omega, rfl⟩, ⟨_, by omega, rfl⟩⟩
  | case4 a b c rest ih =>
    have := a.toNat_lt
    have := b.toNat_lt
    have := c.toNat_lt
    simp only [List.mem_cons, forall_eq_or_imp]
    exact ⟨⟨_, by omega, rfl⟩, ⟨_, by omega, rfl⟩, ⟨_, by omega, rfl⟩, ⟨_, by omega, rfl⟩, ih⟩

theorem b64encode_filter (d : Bytes) : (b64encode d).filter (· ≠ 61) = enc' d := by
  obtain ⟨k, hk⟩ := b64encode_eq_enc' d
  rw [hk, List.filter_append, List.filter_eq_self.mpr]
  · simp
  · intro c hc
    obtain ⟨n, hn, rfl⟩ := enc'_mem d c hc
    simpa using (b64Val_char n hn).2.1

/-- The bytes of base64 text, with padding, are printable ASCII. -/
theorem b64encode_mem (d : Bytes) : ∀ c ∈ b64encode d, 32 < c.toNat ∧ c.toNat < 127 := by
  intro c hc
  have key : ∀ n < 64, 32 < (b64Char n).toNat ∧ (b64Char n).toNat < 127 := by decide +kernel
  obtain ⟨k, hk⟩ := b64encode_eq_enc' d
  rw [hk] at hc
  rcases List.mem_append.mp hc with h | h
  · obtain ⟨n, hn, rfl⟩ := enc'_mem d c h
    exact key n hn
  · rw [List.eq_of_mem_replicate h]; decide

theorem char_toNat {n : Nat} (h : n < 128) : (Char.ofNat n).toNat = n := by
  revert n; decide +kernel

theorem asciiEncode_chars {b : Bytes} (h : ∀ c ∈ b, c.toNat < 128) : asciiEncode (String.ofList (chars b)) = .ok b := by
  unfold asciiEncode chars
  simp only [String.toList_ofList]
  rw [if_pos]
  · congr 1
    rw [List.map_map]
    conv_rhs => rw [← List.map_id b]
    apply List.map_congr_left
    intro c hc
    simp only [Function.comp, id, char_toNat (h c hc)]
    exact UInt8.ofNat_toNat
  · rw [List.all_eq_true]
    intro c hc
    obtain ⟨x, hx, rfl⟩ := List.mem_map.mp hc
    rw [char_toNat (h x hx)]
    simpa using h x hx

/-! ### der_cert2rsa -/

theorem isB64Char_iff (c : Char) : isB64Char c = decide (c ∈ base64Alphabet) := by
  by_cases h : c.toNat < 128
  · have key : ∀ n < 128, isB64Char (Char.ofNat n) = decide (Char.ofNat n ∈ base64Alphabet) := by decide +kernel
    have := key c.toNat h
    rwa [Char.ofNat_toNat] at this
  · have h1 : c ∉ base64Alphabet := by
      intro hc
      have key : ∀ x ∈ base64Alphabet, x.toNat < 128 := by decide +kernel
      exact h (key c hc)
    rw [decide_eq_false h1]
    have le : ∀ x : Char, x.toNat < 128 → ¬ c ≤ x := by
      intro x hx hc
      have : c.toNat ≤ x.toNat := hc
      omega
    unfold isB64Char
    have h2 : c ≠ '+' := by rintro rfl; exact h (by decide)
    have h3 : c ≠ '/' := by rintro rfl; exact h (by decide)
    simp [le 'Z' (by decide), le 'z' (by decide), le '9' (by decide), h2, h3]

/-- **C127.** `der_cert2rsa` removes the padding too: it reads the base64 of a certificate only if the number of bytes is a multiple of
three. -/
theorem C127_text (imp : Bytes → PyM RsaKey) {d : Bytes} {s : String} (h : Base64In d s) :
    derCert2rsa imp s = if d.length % 3 = 0 then der2rsa imp d else .error .binasciiError := by
  have hf : s.toList.filter isB64Char = chars (enc' d) := by
    rw [← b64encode_filter]
    rw [← h]
    congr 1
    funext c
    exact isB64Char_iff c
  unfold derCert2rsa
  rw [hf, asciiEncode_chars (by
    intro c hc
    obtain ⟨n, hn, rfl⟩ := enc'_mem d c hc
    exact (b64Val_char n hn).2.2)]
  simp only [Bind.bind, Except.bind, a2bBase64]
  have := a2b_enc d 0
  rw [List.replicate_zero, List.append_nil] at this
  rw [this]
  by_cases h3 : d.length % 3 = 0
  · simp [h3]
  · simp [h3]

/-- **C127.** It never reads a PEM text: the letters of the first line count as base64. -/
theorem C127_armour (imp : Bytes → PyM RsaKey) (x : String) :
    derCert2rsa imp ("-----BEGIN CERTIFICATE-----" ++ x) = .error .binasciiError ∨
    derCert2rsa imp ("-----BEGIN CERTIFICATE-----" ++ x) = .error .valueError := by
  unfold derCert2rsa
  have hf : ("-----BEGIN CERTIFICATE-----" ++ x).toList.filter isB64Char =
      "BEGINCERTIFICATE".toList ++ x.toList.filter isB64Char := by
    rw [String.toList_append, List.filter_append]
    congr 1
  rw [hf]
  have hx : ∃ b : Bytes, asciiEncode (String.ofList ("BEGINCERTIFICATE".toList ++ x.toList.filter isB64Char)) =
      .ok (ascii "BEGINCERTIFICATE" ++ b) := by
    refine ⟨(x.toList.filter isB64Char).map fun c => UInt8.ofNat c.toNat, ?_⟩
    unfold asciiEncode
    rw [String.toList_ofList, if_pos]
    · rw [List.map_append]
      rfl
    · rw [List.all_eq_true]
      intro c hc
      have key : ∀ x ∈ base64Alphabet, x.toNat < 128 := by decide +kernel
      have : c ∈ base64Alphabet := by
        rcases List.mem_append.mp hc with h | h
        · have key2 : ∀ x ∈ "BEGINCERTIFICATE".toList, x ∈ base64Alphabet := by decide +kernel
          exact key2 c h
        · have := (List.mem_filter.mp h).2
          rw [isB64Char_iff] at this
          simpa using this
      simpa using key c this
  obtain ⟨b, hb⟩ := hx
  rw [hb]
  have hd : a2bBase64 (ascii "BEGINCERTIFICATE" ++ b) = (a2bLoop b 0 0 0).map ([4, 65, 136, 52, 33, 17, 76, 129, 72, 8, 4, 196] ++ ·) := by
    have e : ascii "BEGINCERTIFICATE" = b64encode [4, 65, 136, 52, 33, 17, 76, 129, 72, 8, 4, 196] := by decide +kernel
    unfold a2bBase64
    rw [e, a2b_tail, if_pos (by decide)]
  simp only [Bind.bind, Except.bind, hd]
  cases hr : a2bLoop b 0 0 0 with
  | error e =>
    left
    rw [a2bLoop_err _ _ _ _ _ hr]
    rfl
  | ok r =>
    right
    have hs : ∀ x, derSequence (4 :: 65 :: x) = .error .valueError := by
      intro x
      have h1 : derLen (65 :: x) = .ok (65, x) := rfl
      simp only [derSequence, derObject, Bind.bind, h1, Except.bind]
      cases hq : derRead 65 x with
      | error e =>
        unfold derRead at hq
        split at hq <;> cases hq
        rfl
      | ok q => rfl
    simp only [Except.map, List.cons_append]
    unfold der2rsa
    rw [hs]
    rfl

/-! ### pem_cert2rsa -/

theorem split_word (w s : List Char) : ∀ acc, (∀ c ∈ w, isPySpace c = false) → pySplitLoop (w ++ s) acc = pySplitLoop s (acc ++ w) := by
  induction w with
  | nil => intro acc _; simp
  | cons c w ih =>
    intro acc h
    simp only [List.mem_cons, forall_eq_or_imp] at h
    rw [List.cons_append]
    conv_lhs => unfold pySplitLoop
    rw [h.1, if_neg (by simp), ih _ h.2]
    simp

theorem split_skip (nl s : List Char) (h : ∀ c ∈ nl, isPySpace c = true) : pySplitLoop (nl ++ s) [] = pySplitLoop s [] := by
  induction nl with
  | nil => rfl
  | cons c nl ih =>
    simp only [List.mem_cons, forall_eq_or_imp] at h
    rw [List.cons_append]
    conv_lhs => unfold pySplitLoop
    rw [h.1, if_pos rfl, if_pos rfl, ih h.2]

theorem split_end {nl s acc : List Char} (hn : nl ≠ []) (h : ∀ c ∈ nl, isPySpace c = true) (ha : acc ≠ []) :
    pySplitLoop (nl ++ s) acc = acc :: pySplitLoop s [] := by
  cases nl with
  | nil => exact absurd rfl hn
  | cons c nl =>
    simp only [List.mem_cons, forall_eq_or_imp] at h
    rw [List.cons_append]
    conv_lhs => unfold pySplitLoop
    rw [h.1, if_pos rfl, if_neg ha, split_skip nl s h.2]

/-- A word and the space after it. -/
theorem split_line {w nl s : List Char} (hw : w ≠ []) (hs : ∀ c ∈ w, isPySpace c = false) (hn : nl ≠ []) (h : ∀ c ∈ nl, isPySpace c = true) :
    pySplit (w ++ nl ++ s) = w :: pySplit s := by
  unfold pySplit
  rw [List.append_assoc, split_word w _ [] hs, List.nil_append, split_end hn h hw]

theorem split_lines {lines : List (List Char)} {nl s : List Char} (hw : ∀ w ∈ lines, w ≠ [] ∧ ∀ c ∈ w, isPySpace c = false)
    (hn : nl ≠ []) (h : ∀ c ∈ nl, isPySpace c = true) : pySplit ((lines.map (· ++ nl)).flatten ++ s) = lines ++ pySplit s := by
  induction lines with
  | nil => rfl
  | cons w lines ih =>
    simp only [List.mem_cons, forall_eq_or_imp] at hw
    rw [List.map_cons, List.flatten_cons, List.append_assoc, split_line hw.1.1 hw.1.2 hn h, ih hw.2, List.cons_append]

theorem lineEnd_space {nl : List Char} (h : LineEnd nl) : (∀ c ∈ nl, isPySpace c = true) ∧ nl.filter (· != ' ') = nl := by
  have key : ∀ c ∈ ['\n', '\r', '\t'], isPySpace c = true ∧ (c != ' ') = true := by decide +kernel
  exact ⟨fun c hc => (key c (h.2 c hc)).1, List.filter_eq_self.mpr fun c hc => (key c (h.2 c hc)).2⟩

theorem b64_chars (d : Bytes) : ∀ c ∈ chars (b64encode d), isPySpace c = false ∧ (c != ' ') = true := by
  intro c hc
  obtain ⟨b, hb, rfl⟩ := List.mem_map.mp hc
  obtain ⟨h1, h2⟩ := b64encode_mem d b hb
  have key : ∀ n < 127, 32 < n → isPySpace (Char.ofNat n) = false ∧ (Char.ofNat n != ' ') = true := by decide +kernel
  exact key _ h2 h1

/-- The words of a text that begins with a certificate. -/
theorem pem_words {d : Bytes} {nl text : List Char} (hn : LineEnd nl) (h : Pem d nl text) :
    ∃ lines : List (List Char), lines.flatten = chars (b64encode d) ∧ ∀ x : List Char,
      pySplit ((text ++ x).filter (· != ' ')) =
        "-----BEGINCERTIFICATE-----".toList :: (lines ++ pySplit ("-----ENDCERTIFICATE-----".toList ++ x.filter (· != ' '))) := by
  obtain ⟨lines, hl, hf, rfl⟩ := h
  obtain ⟨hs, hnb⟩ := lineEnd_space hn
  have hc : ∀ l ∈ lines, ∀ c ∈ l, isPySpace c = false ∧ (c != ' ') = true := by
    intro l hl c hc
    exact b64_chars d c (by rw [← hf]; exact List.mem_flatten.mpr ⟨l, hl, hc⟩)
  refine ⟨lines, hf, fun x => ?_⟩
  have h1 : ((lines.map (· ++ nl)).flatten).filter (· != ' ') = (lines.map (· ++ nl)).flatten := by
    rw [List.filter_eq_self]
    intro c hm
    obtain ⟨l, hl', hcl⟩ := List.mem_flatten.mp hm
    obtain ⟨w, hw, rfl⟩ := List.mem_map.mp hl'
    rcases List.mem_append.mp hcl with h | h
    · exact (hc w hw c h).2
    · rw [List.filter_eq_self] at hnb
      exact hnb c h
  have h2 : "-----BEGIN CERTIFICATE-----".toList.filter (· != ' ') = "-----BEGINCERTIFICATE-----".toList := by decide +kernel
  have h3 : "-----END CERTIFICATE-----".toList.filter (· != ' ') = "-----ENDCERTIFICATE-----".toList := by decide +kernel
  rw [List.filter_append, List.filter_append, List.filter_append, List.filter_append, h1, h2, h3, hnb, List.append_assoc, List.append_assoc,
    split_line (by decide) (by decide +kernel) hn.1 hs, split_lines (fun w hw => ⟨hl w hw, fun c h => (hc w hw c h).1⟩) hn.1 hs]

/-- The characters that `str.isspace` is true of. -/
def Spec.White (c : Char) : Prop :=
  c.toNat ∈ [9, 10, 11, 12, 13, 28, 29, 30, 31, 32, 0x85, 0xa0, 0x1680, 0x2000, 0x2001, 0x2002, 0x2003, 0x2004, 0x2005,
    0x2006, 0x2007, 0x2008, 0x2009, 0x200a, 0x2028, 0x2029, 0x202f, 0x205f, 0x3000]

theorem white_iff (c : Char) : White c ↔ isPySpace c = true := by
  simp only [White, isPySpace, List.mem_cons, List.not_mem_nil, or_false, Bool.or_eq_true, Bool.and_eq_true,
    decide_eq_true_eq, beq_iff_eq]
  omega

/-- **C127.** `pem_cert2rsa` reads the PEM form of every certificate, whatever the length of the lines. -/
theorem C127_pem (impText : String → PyM RsaKey) (imp : Bytes → PyM RsaKey) {d : Bytes} {nl text tail : List Char} (hn : LineEnd nl)
    (h : Pem d nl text) (ht : ∀ c ∈ tail, White c) :
    pemCert2rsa impText imp (String.ofList (text ++ tail)) = (impText (String.ofList (text ++ tail))).bind fun _ => der2rsa imp d := by
  replace ht : ∀ c ∈ tail, isPySpace c = true := fun c hc => (white_iff c).mp (ht c hc)
  obtain ⟨lines, hf, hw⟩ := pem_words hn h
  have hend : pySplit ("-----ENDCERTIFICATE-----".toList ++ tail.filter (· != ' ')) = ["-----ENDCERTIFICATE-----".toList] := by
    have ht' : ∀ c ∈ tail.filter (· != ' '), isPySpace c = true := fun c hc => ht c (List.mem_filter.mp hc).1
    unfold pySplit
    rw [split_word _ _ [] (by decide +kernel), List.nil_append]
    generalize tail.filter (· != ' ') = t at ht'
    cases t with
    | nil => decide +kernel
    | cons c t =>
      have := split_end (nl := c :: t) (s := []) (acc := "-----ENDCERTIFICATE-----".toList) (by simp) ht' (by decide)
      rw [List.append_nil] at this
      rw [this]; rfl
  unfold pemCert2rsa
  simp only [Bind.bind, String.toList_ofList, hw, hend, List.drop_one, List.tail_cons, List.dropLast_concat, hf]
  rw [asciiEncode_chars fun c hc => by have := (b64encode_mem d c hc).2; omega]
  simp only [Except.bind, a2b_b64encode]

theorem split_mem : ∀ (s acc w : List Char), w ∈ pySplitLoop s acc → ∀ c ∈ w, c ∈ acc ∨ c ∈ s := by
  intro s
  induction s with
  | nil =>
    intro acc w h c hc
    unfold pySplitLoop at h
    split at h
    · cases h
    · simp at h; subst h; exact .inl hc
  | cons a s ih =>
    intro acc w h c hc
    unfold pySplitLoop at h
    split at h
    · split at h
      · rcases ih _ _ h c hc with h | h
        · cases h
        · exact .inr (by simp [h])
      · rcases List.mem_cons.mp h with rfl | h
        · exact .inl hc
        · rcases ih _ _ h c hc with h | h
          · cases h
          · exact .inr (by simp [h])
    · rcases ih _ _ h c hc with h | h
      · rcases List.mem_append.mp h with h | h
        · exact .inl h
        · exact .inr (by simp at h; simp [h])
      · exact .inr (by simp [h])

theorem a2b_dash (s : Bytes) (q l p : Nat) : a2bLoop (45 :: s) q l p = a2bLoop s q l p := by
  have h : b64Val 45 = none := by decide
  simp [a2bLoop, h]

/-- The last line of a certificate is not empty as base64. -/
theorem a2b_endLine {y r : Bytes} (h : a2bLoop (ascii "-----ENDCERTIFICATE-----" ++ y) 0 0 0 = .ok r) : r ≠ [] := by
  have e : ascii "-----ENDCERTIFICATE-----" = 45 :: 45 :: 45 :: 45 :: 45 :: (b64encode [16, 208, 194] ++ ascii "ERTIFICATE-----") := by
    decide +kernel
  rw [e] at h
  simp only [List.cons_append, List.append_assoc, a2b_dash] at h
  rw [a2b_tail, if_pos (by decide)] at h
  cases hq : a2bLoop (ascii "ERTIFICATE-----" ++ y) 0 0 0 with
  | error e => rw [hq] at h; cases h
  | ok q => rw [hq] at h; cases h; simp

/-- Bytes after a sequence. -/
theorem derSequence_more {items : List Bytes} {b r : Bytes} (h : DerSeq items b) (hr : r ≠ []) : derSequence (b ++ r) = .error .valueError := by
  have : derObject (b ++ r) = .ok (0x30, items.flatten, r) := derObject_ok.mpr ⟨b, h.1, rfl⟩
  unfold derSequence
  rw [this]
  simp only [Bind.bind, Except.bind]
  rw [if_neg (by simp), derElems_total items _ h.2 (le_refl _)]
  simp [hr]

/-- **C127.** Of a file with more text after the first certificate (a chain): the first certificate counts if its length is no
multiple of three; otherwise the file is refused. -/
theorem C127_chain (impText : String → PyM RsaKey) (imp : Bytes → PyM RsaKey) {d : Bytes} {nl text x : List Char} (hn : LineEnd nl)
    (h : Pem d nl text) (hx : ∀ c ∈ x, c.toNat < 128) (hx2 : pySplit (x.filter (· != ' ')) ≠ []) {r0 : RsaKey}
    (hi : impText (String.ofList (text ++ nl ++ x)) = .ok r0) {tbs sig : List Bytes} (hc : Certificate tbs sig d) :
    (d.length % 3 ≠ 0 → pemCert2rsa impText imp (String.ofList (text ++ nl ++ x)) = der2rsa imp d) ∧
    (d.length % 3 = 0 → pemCert2rsa impText imp (String.ofList (text ++ nl ++ x)) = .error .binasciiError ∨
      pemCert2rsa impText imp (String.ofList (text ++ nl ++ x)) = .error .valueError) := by
  obtain ⟨lines, hf, hw⟩ := pem_words hn h
  obtain ⟨hs, hnb⟩ := lineEnd_space hn
  have hend : pySplit ("-----ENDCERTIFICATE-----".toList ++ (nl ++ x).filter (· != ' ')) =
      "-----ENDCERTIFICATE-----".toList :: pySplit (x.filter (· != ' ')) := by
    rw [List.filter_append, hnb, ← List.append_assoc]
    exact split_line (by decide) (by decide +kernel) hn.1 hs
  have hdl : (lines ++ ("-----ENDCERTIFICATE-----".toList :: pySplit (x.filter (· != ' ')))).dropLast =
      lines ++ "-----ENDCERTIFICATE-----".toList :: (pySplit (x.filter (· != ' '))).dropLast := by
    rw [List.dropLast_append_of_ne_nil (by simp), List.dropLast_cons_of_ne_nil hx2]
  have hy : ∀ c ∈ (pySplit (x.filter (· != ' '))).dropLast.flatten, c.toNat < 128 := by
    intro c hc
    obtain ⟨w, hw, hcw⟩ := List.mem_flatten.mp hc
    rcases split_mem _ _ w (List.mem_of_mem_dropLast hw) c hcw with h | h
    · cases h
    · exact hx c (List.mem_filter.mp h).1
  generalize (pySplit (x.filter (· != ' '))).dropLast = more at hdl hy
  have henc : asciiEncode (String.ofList (lines ++ "-----ENDCERTIFICATE-----".toList :: more).flatten) =
      .ok (b64encode d ++ (ascii "-----ENDCERTIFICATE-----" ++ more.flatten.map fun c => UInt8.ofNat c.toNat)) := by
    have h1 : (lines ++ "-----ENDCERTIFICATE-----".toList :: more).flatten = chars (b64encode d ++ (ascii "-----ENDCERTIFICATE-----" ++
        more.flatten.map fun c => UInt8.ofNat c.toNat)) := by
      have h2 : chars (ascii "-----ENDCERTIFICATE-----") = "-----ENDCERTIFICATE-----".toList := by decide +kernel
      have h3 : (more.flatten.map fun c => UInt8.ofNat c.toNat).map (fun c => Char.ofNat c.toNat) = more.flatten := by
        rw [List.map_map]
        conv_rhs => rw [← List.map_id more.flatten]
        apply List.map_congr_left
        intro c hc
        have := hy c hc
        simp only [Function.comp, id]
        have e : (UInt8.ofNat c.toNat).toNat = c.toNat := by rw [UInt8.toNat_ofNat']; omega
        rw [e, Char.ofNat_toNat]
      unfold chars at h2 hf ⊢
      rw [List.map_append, List.map_append, h2, h3, ← hf]
      simp
    rw [h1]
    apply asciiEncode_chars
    intro c hc
    rcases List.mem_append.mp hc with h | h
    · have := (b64encode_mem d c h).2; omega
    · rcases List.mem_append.mp h with h | h
      · have key : ∀ c ∈ ascii "-----ENDCERTIFICATE-----", c.toNat < 128 := by decide +kernel
        exact key c h
      · obtain ⟨a, ha, rfl⟩ := List.mem_map.mp h
        have := hy a ha
        rw [UInt8.toNat_ofNat']; omega
  have main : pemCert2rsa impText imp (String.ofList (text ++ nl ++ x)) = (a2bBase64 (b64encode d ++ (ascii "-----ENDCERTIFICATE-----" ++
      more.flatten.map fun c => UInt8.ofNat c.toNat))).bind fun der => der2rsa imp der := by
    unfold pemCert2rsa
    rw [hi]
    simp only [Bind.bind, Except.bind, String.toList_ofList, List.append_assoc, hw, hend, List.drop_one, List.tail_cons, hdl, henc]
  rw [main]
  unfold a2bBase64
  rw [a2b_tail]
  constructor
  · intro h3
    rw [if_neg h3]; rfl
  · intro h3
    rw [if_pos h3]
    cases hq : a2bLoop (ascii "-----ENDCERTIFICATE-----" ++ more.flatten.map fun c => UInt8.ofNat c.toNat) 0 0 0 with
    | error e =>
      left
      rw [a2bLoop_err _ _ _ _ _ hq]; rfl
    | ok r =>
      right
      obtain ⟨t, -, hd⟩ := hc
      simp only [Except.map, Except.bind, der2rsa, derSequence_more hd (a2b_endLine hq), Bind.bind]

/-! ### load_x509_cert -/

/-- What a call should return for the answer to its request: the key that the text stands for, or nothing. -/
def Spec.CertAnswer (impText : String → PyM RsaKey) (answer : PyM (Nat × String)) : List (String × RsaKey) :=
  match answer with
  | .ok (200, text) => (match impText text with | .ok k => [("rsa", k)] | .error _ => [])
  | _ => []

/-- A cache whose keys were read from their texts. -/
def Spec.HonestCache (impText : String → PyM RsaKey) (cache : List (String × RsaKey)) : Prop :=
  ∀ p ∈ cache, impText p.1 = .ok p.2

/-- **C128.** `x509_rsa_load(text)` and `load_x509_cert` of a url that answers with the text agree; where the
former raises, the latter returns the empty list. -/
theorem C128_text (get : String → PyM (Nat × String)) (impText : String → PyM RsaKey) (url text : String)
    (h : get url = .ok (200, text)) :
    (∀ l, x509RsaLoad impText text = .ok l → (loadX509Cert get impText url []).1 = l ∧ l ≠ []) ∧
    (∀ e, x509RsaLoad impText text = .error e → (loadX509Cert get impText url []).1 = []) := by
  unfold x509RsaLoad loadX509Cert
  rw [h]
  cases hi : impText text with
  | ok k =>
    refine ⟨fun l hl => ?_, fun e he => by cases he⟩
    cases hl
    exact ⟨by simp [hi], by simp⟩
  | error e =>
    refine ⟨fun l hl => (by simp [Except.map] at hl), fun e' he => ?_⟩
    simp [hi]

/-- Both cases occur. -/
example (k : RsaKey) : x509RsaLoad (fun t => if t = "a" then .ok k else .error .valueError) "a" = .ok [("rsa", k)] ∧
    x509RsaLoad (fun t => if t = "a" then .ok k else .error .valueError) "b" = .error .valueError := ⟨rfl, rfl⟩

/-- **C128.** One call with an honest cache. -/
theorem C128_call (get : String → PyM (Nat × String)) (impText : String → PyM RsaKey) (url : String) {cache : List (String × RsaKey)}
    (h : HonestCache impText cache) : (loadX509Cert get impText url cache).1 = CertAnswer impText (get url) ∧
      HonestCache impText (loadX509Cert get impText url cache).2 := by
  unfold loadX509Cert CertAnswer
  cases get url with
  | error e => exact ⟨rfl, h⟩
  | ok a =>
    obtain ⟨st, text⟩ := a
    dsimp only
    by_cases hs : st = 200
    · subst hs
      simp only [if_true]
      cases hl : cache.lookup text with
      | some k =>
        have := h _ (lookup_mem hl)
        simp only [this]
        exact ⟨trivial, h⟩
      | none =>
        cases hi : impText text with
        | error e => exact ⟨rfl, h⟩
        | ok k =>
          refine ⟨rfl, fun p hp => ?_⟩
          rcases List.mem_append.mp hp with hp | hp
          · exact h p hp
          · simp at hp; subst hp; exact hi
    · rw [if_neg hs]
      refine ⟨?_, h⟩
      split
      · rename_i he
        injection he with he
        injection he with h1 h2
        exact absurd h1 hs
      · rfl

/-- Calls one after the other that share the dictionary; the network may answer differently each time. -/
def runLoads (impText : String → PyM RsaKey) : List ((String → PyM (Nat × String)) × String) → List (String × RsaKey) → List (List (String × RsaKey))
  | [], _ => []
  | (get, url) :: calls, cache =>
    (loadX509Cert get impText url cache).1 :: runLoads impText calls (loadX509Cert get impText url cache).2

/-- **C128.** In every sequence of calls that begins with an empty dictionary, every call returns what its own answer says; it never
raises. -/
theorem C128_calls (impText : String → PyM RsaKey) (calls : List ((String → PyM (Nat × String)) × String)) :
    runLoads impText calls [] = calls.map fun c => CertAnswer impText (c.1 c.2) := by
  have gen : ∀ calls cache, HonestCache impText cache → runLoads impText calls cache = calls.map fun c => CertAnswer impText (c.1 c.2) := by
    intro calls
    induction calls with
    | nil => intro cache _; rfl
    | cons c calls ih =>
      intro cache h
      obtain ⟨get, url⟩ := c
      obtain ⟨h1, h2⟩ := C128_call get impText url h
      simp only [runLoads, List.map_cons, h1, ih _ h2]
  exact gen calls [] fun p hp => absurd hp (by simp)

/-- **C128.** A key in the dictionary is returned for its text, whatever the text says. -/
theorem C128_cached (get : String → PyM (Nat × String)) (impText : String → PyM RsaKey) (url text : String) (k : RsaKey)
    (cache : List (String × RsaKey)) (hg : get url = .ok (200, text)) (hl : cache.lookup text = some k) :
    loadX509Cert get impText url cache = ([("rsa", k)], cache) := by
  simp [loadX509Cert, hg, hl]

/-! ### Examples -/

/-- 24 bytes: read; 26 bytes: refused. -/
example (imp : Bytes → PyM RsaKey) : derCert2rsa imp "MBYwFKADAgEC\nAgEBMAAwADAAMAAwAgUA" = imp [0x30, 2, 5, 0] := by
  rw [C127_text imp (d := exCertDer exTbs []) (by unfold Base64In; decide +kernel), if_pos (by decide)]
  exact C126_key imp (exCert_is (by simpa using exTbs_items) (by decide)) rfl rfl

example (imp : Bytes → PyM RsaKey) : derCert2rsa imp "MBgwFKADAgECAgEBMAAwADAAMAAwAgUABQA=" = .error .binasciiError := by
  rw [C127_text imp (d := exCertDer exTbs [[5, 0]]) (by unfold Base64In; decide +kernel), if_neg (by decide)]

def exPem : List Char := "-----BEGIN CERTIFICATE-----\nMBgwFKADAgEC\nAgEBMAAwADAAMAAwAgUABQA=\n-----END CERTIFICATE-----".toList

theorem exPem_is : Pem (exCertDer exTbs [[5, 0]]) ['\n'] exPem :=
  ⟨["MBgwFKADAgEC".toList, "AgEBMAAwADAAMAAwAgUABQA=".toList], by decide +kernel, by decide +kernel, by decide +kernel⟩

theorem exPem_cert : Certificate exTbs [[5, 0]] (exCertDer exTbs [[5, 0]]) := exCert_is (by
    intro i hi
    rcases List.mem_append.mp hi with h | h
    · exact exTbs_items i h
    · simp at h; subst h; exact ⟨5, [], tlv_short (c := []) (by decide)⟩) (by decide)

example (impText : String → PyM RsaKey) (imp : Bytes → PyM RsaKey) (r : RsaKey) (h : impText (String.ofList (exPem ++ ['\n'])) = .ok r) :
    pemCert2rsa impText imp (String.ofList (exPem ++ ['\n'])) = imp [0x30, 2, 5, 0] := by
  rw [C127_pem impText imp (by exact ⟨by simp, by simp⟩) exPem_is (by simp [White]), h]
  exact C126_key imp exPem_cert rfl rfl

/-- Followed by itself. -/
example (impText : String → PyM RsaKey) (imp : Bytes → PyM RsaKey) (r : RsaKey) (h : impText (String.ofList (exPem ++ ['\n'] ++ exPem)) = .ok r) :
    pemCert2rsa impText imp (String.ofList (exPem ++ ['\n'] ++ exPem)) = imp [0x30, 2, 5, 0] := by
  rw [(C127_chain impText imp (by exact ⟨by simp, by simp⟩) exPem_is (by decide +kernel) (by decide +kernel) h exPem_cert).1 (by decide)]
  exact C126_key imp exPem_cert rfl rfl

/-- The same text three times, the second time with an error of the server. -/
example (k : RsaKey) : runLoads (fun t => if t = "c" then .ok k else .error .valueError)
    [(fun _ => .ok (200, "c"), "u"), (fun _ => .ok (500, "c"), "u"), (fun _ => .error .generic, "u"), (fun _ => .ok (200, "c"), "v")] [] =
      [[("rsa", k)], [], [], [("rsa", k)]] := by
  rw [C128_calls]
  simp [CertAnswer]

end Verif
