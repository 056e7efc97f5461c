import Verif.Model.Init
import Verif.Spec.Base64
/-
Helper lemmas on the base64 functions.
-/

namespace Verif
open Spec

/-! ### Finite facts about the alphabet -/

theorem forall_uint8 {P : UInt8 → Prop} (h : ∀ n : Fin 256, P (UInt8.ofNat n.1)) (c : UInt8) :
    P c := by
  have := h ⟨c.toNat, c.toNat_lt⟩
  simpa using this

theorem isB64Url_iff (c : UInt8) : isB64Url c = true ↔ c ∈ urlAlphabet :=
  forall_uint8 (P := fun c => isB64Url c = true ↔ c ∈ urlAlphabet) (by decide +kernel) c

theorem b64Val_fromUrl (c : UInt8) (h : c ∈ urlAlphabet) :
    b64Val (fromUrl c) = some (urlAlphabet.idxOf c) ∧ fromUrl c ≠ 61 ∧ c ≠ 61 ∧ c ≠ 10 ∧
      c < 128 ∧ urlAlphabet.idxOf c < 64 :=
  forall_uint8 (P := fun c => c ∈ urlAlphabet → b64Val (fromUrl c) = some (urlAlphabet.idxOf c) ∧
    fromUrl c ≠ 61 ∧ c ≠ 61 ∧ c ≠ 10 ∧ c < 128 ∧ urlAlphabet.idxOf c < 64)
    (by decide +kernel) c h

theorem toUrl_b64Char (n : Nat) (h : n < 64) :
    toUrl (b64Char n) ∈ urlAlphabet ∧ urlAlphabet.idxOf (toUrl (b64Char n)) = n := by
  have : ∀ n : Fin 64, toUrl (b64Char n) ∈ urlAlphabet ∧
      urlAlphabet.idxOf (toUrl (b64Char n)) = n := by decide +kernel
  exact this ⟨n, h⟩

/-- The alphabet index determines the character. -/
theorem idx_inj {c d : UInt8} (hc : c ∈ urlAlphabet) (hd : d ∈ urlAlphabet)
    (h : urlAlphabet.idxOf c = urlAlphabet.idxOf d) : c = d := by
  have e1 := List.getElem_idxOf (List.idxOf_lt_length_of_mem hc)
  have e2 := List.getElem_idxOf (List.idxOf_lt_length_of_mem hd)
  rw [← e1, ← e2]
  simp only [h]

/-! ### Bits -/

theorem bit_toNat (i n : Nat) : (bit i n).toNat = n / 2 ^ i % 2 := by
  unfold bit
  rcases Nat.mod_two_eq_zero_or_one (n / 2 ^ i) with h | h <;> simp [h]

theorem bit_eq_iff (i j n m : Nat) : bit i n = bit j m ↔ n / 2 ^ i % 2 = m / 2 ^ j % 2 := by
  rw [← bit_toNat, ← bit_toNat]
  constructor
  · intro h; rw [h]
  · intro h
    cases h1 : bit i n <;> cases h2 : bit j m <;> simp_all

theorem byteBits_length (c : UInt8) : (byteBits c).length = 8 := by simp [byteBits]
theorem sextetBits_length (c : UInt8) : (sextetBits c).length = 6 := by simp [sextetBits]

theorem flatMap_length_const {α β} (f : α → List β) (k : Nat) (h : ∀ a, (f a).length = k)
    (l : List α) : (l.flatMap f).length = k * l.length := by
  induction l with
  | nil => simp
  | cons a l ih => simp [List.flatMap_cons, h, ih, Nat.mul_add]; omega

theorem byteBits_flat_length (b : Bytes) : (b.flatMap byteBits).length = 8 * b.length :=
  flatMap_length_const _ _ byteBits_length b
theorem sextetBits_flat_length (b : Bytes) : (b.flatMap sextetBits).length = 6 * b.length :=
  flatMap_length_const _ _ sextetBits_length b

theorem byteBits_inj {c d : UInt8} (h : byteBits c = byteBits d) : c = d := by
  simp only [byteBits, List.map_cons, List.map_nil, List.cons.injEq, bit_eq_iff] at h
  have h1 := c.toNat_lt
  have h2 := d.toNat_lt
  apply UInt8.toNat_inj.mp
  omega

theorem sextetBits_inj {c d : UInt8} (hc : c ∈ urlAlphabet) (hd : d ∈ urlAlphabet)
    (h : sextetBits c = sextetBits d) : c = d := by
  simp only [sextetBits, List.map_cons, List.map_nil, List.cons.injEq, bit_eq_iff] at h
  have h1 := (b64Val_fromUrl c hc).2.2.2.2.2
  have h2 := (b64Val_fromUrl d hd).2.2.2.2.2
  apply idx_inj hc hd
  omega

/-- Fixed-width injective codes are uniquely decodable, with arbitrary tails. -/
theorem flatMap_prefix_inj {α β} (f : α → List β) (k : Nat) (hk : ∀ a, (f a).length = k)
    {P : α → Prop} (hf : ∀ a b, P a → P b → f a = f b → a = b) :
    ∀ (l m : List α) (s t : List β), (∀ a ∈ l, P a) → (∀ a ∈ m, P a) → l.length = m.length →
      l.flatMap f ++ s = m.flatMap f ++ t → l = m ∧ s = t := by
  intro l
  induction l with
  | nil =>
    intro m s t _ _ hl h
    cases m with
    | nil => simpa using h
    | cons b m => simp at hl
  | cons a l ih =>
    intro m s t h1 h2 hl h
    cases m with
    | nil => simp at hl
    | cons b m =>
      simp only [List.flatMap_cons, List.append_assoc] at h
      obtain ⟨e1, e2⟩ := List.append_inj h (by rw [hk, hk])
      have hab := hf a b (h1 a (by simp)) (h2 b (by simp)) e1
      obtain ⟨r1, r2⟩ := ih m s t (fun a h => h1 a (by simp [h])) (fun a h => h2 a (by simp [h]))
        (by simpa using hl) e2
      exact ⟨by rw [hab, r1], r2⟩

/-! ### rstrip -/

theorem rstrip_append_replicate (ch : UInt8) (s : Bytes) (k : Nat)
    (h : ∀ c ∈ s.getLast?, c ≠ ch) : rstrip ch (s ++ List.replicate k ch) = s := by
  unfold rstrip
  have h1 : ∀ (k : Nat) (r : Bytes), List.dropWhile (· == ch) (List.replicate k ch ++ r)
      = List.dropWhile (· == ch) r := by
    intro k r
    induction k with
    | zero => simp
    | succ k ih => simp [List.replicate_succ, ih]
  rw [List.reverse_append, List.reverse_replicate, h1]
  cases hr : s.reverse with
  | nil => simp at hr; simp [hr]
  | cons a r =>
    have : s = r.reverse ++ [a] := by
      rw [← List.reverse_reverse s, hr]; simp
    subst this
    have := h a (by simp)
    simp [this]

/-- Every byte string is its `rstrip` followed by copies of the stripped byte. -/
theorem rstrip_spec (ch : UInt8) (b : Bytes) :
    ∃ k, b = rstrip ch b ++ List.replicate k ch ∧ (∀ c ∈ (rstrip ch b).getLast?, c ≠ ch) := by
  unfold rstrip
  have key : ∀ r : Bytes, ∃ k, r = List.replicate k ch ++ r.dropWhile (· == ch) ∧
      ∀ c ∈ (r.dropWhile (· == ch)).head?, c ≠ ch := by
    intro r
    induction r with
    | nil => exact ⟨0, by simp⟩
    | cons a r ih =>
      obtain ⟨k, h1, h2⟩ := ih
      by_cases ha : a = ch
      · subst ha
        refine ⟨k + 1, ?_, ?_⟩
        · simp [List.replicate_succ, ← h1]
        · simpa using h2
      · exact ⟨0, by simp [ha]⟩
  obtain ⟨k, h1, h2⟩ := key b.reverse
  refine ⟨k, ?_, ?_⟩
  · have := congrArg List.reverse h1
    simpa using this
  · simpa [List.getLast?_reverse] using h2

theorem rstrip_eq_self_of {ch : UInt8} {s : Bytes} (h : ∀ c ∈ s, c ≠ ch) : rstrip ch s = s := by
  have := rstrip_append_replicate ch s 0 (fun c hc => h c (List.mem_of_getLast? hc))
  simpa using this

/-! ### Encoding -/

/-- Encoding without padding (proof helper). -/
def enc' : Bytes → Bytes
  | [] => []
  | [a] => [b64Char (a.toNat / 4), b64Char (a.toNat % 4 * 16)]
  | [a, b] => [b64Char (a.toNat / 4), b64Char (a.toNat % 4 * 16 + b.toNat / 16),
               b64Char (b.toNat % 16 * 4)]
  | a :: b :: c :: rest =>
      b64Char (a.toNat / 4) :: b64Char (a.toNat % 4 * 16 + b.toNat / 16) ::
      b64Char (b.toNat % 16 * 4 + c.toNat / 64) :: b64Char (c.toNat % 64) :: enc' rest

theorem b64encode_eq_enc' (b : Bytes) : ∃ k, b64encode b = enc' b ++ List.replicate k 61 := by
  fun_induction b64encode b with
  | case1 => exact ⟨0, rfl⟩
  | case2 a => exact ⟨2, rfl⟩
  | case3 a b => exact ⟨1, rfl⟩
  | case4 a b c rest ih =>
    obtain ⟨k, hk⟩ := ih
    exact ⟨k, by simp [enc', hk]⟩

theorem enc'_alpha (b : Bytes) : ∀ c ∈ (enc' b).map toUrl, c ∈ urlAlphabet := by
  have key : ∀ n < 64, toUrl (b64Char n) ∈ urlAlphabet := fun n h => (toUrl_b64Char n h).1
  fun_induction enc' b with
  | case1 => simp
  | case2 a =>
    have := a.toNat_lt
    simp; exact ⟨key _ (by omega), key _ (by omega)⟩
  | case3 a b =>
    have := a.toNat_lt
    have := b.toNat_lt
    simp; exact ⟨key _ (by omega), key _ (by omega), key _ (by omega)⟩
  | case4 a b c rest ih =>
    have := a.toNat_lt
    have := b.toNat_lt
    have := c.toNat_lt
    simp only [List.map_cons, List.mem_cons, forall_eq_or_imp]
    exact ⟨key _ (by omega), key _ (by omega), key _ (by omega), key _ (by omega), ih⟩

theorem b64e_eq (b : Bytes) : b64e b = (enc' b).map toUrl := by
  obtain ⟨k, hk⟩ := b64encode_eq_enc' b
  have h61 : toUrl 61 = 61 := by decide
  unfold b64e urlsafeB64encode
  rw [hk, List.map_append, List.map_replicate, h61]
  apply rstrip_append_replicate
  intro c hc
  exact (b64Val_fromUrl c (enc'_alpha b c (List.mem_of_getLast? hc))).2.2.1

theorem sextetBits_char (n : Nat) (h : n < 64) :
    sextetBits (toUrl (b64Char n)) = [5, 4, 3, 2, 1, 0].map fun i => bit i n := by
  simp only [sextetBits, (toUrl_b64Char n h).2]

theorem bit_false_iff (i n : Nat) : bit i n = false ↔ n / 2 ^ i % 2 = 0 := by
  unfold bit
  rcases Nat.mod_two_eq_zero_or_one (n / 2 ^ i) with h | h <;> simp [h]

theorem enc'_bits (b : Bytes) : ∃ k < 6,
    ((enc' b).map toUrl).flatMap sextetBits = b.flatMap byteBits ++ List.replicate k false := by
  fun_induction enc' b with
  | case1 => exact ⟨0, by simp⟩
  | case2 a =>
    have := a.toNat_lt
    refine ⟨4, by omega, ?_⟩
    simp only [List.map_cons, List.map_nil, List.flatMap_cons, List.flatMap_nil]
    rw [sextetBits_char _ (by omega), sextetBits_char _ (by omega)]
    simp only [byteBits, List.map_cons, List.map_nil, List.cons_append, List.nil_append,
      List.replicate, List.cons.injEq, bit_eq_iff, bit_false_iff, List.append_nil, and_true]
    refine ⟨?_, ?_, ?_, ?_, ?_, ?_, ?_, ?_, ?_, ?_, ?_, ?_⟩ <;> omega
  | case3 a b =>
    have := a.toNat_lt
    have := b.toNat_lt
    refine ⟨2, by omega, ?_⟩
    simp only [List.map_cons, List.map_nil, List.flatMap_cons, List.flatMap_nil]
    rw [sextetBits_char _ (by omega), sextetBits_char _ (by omega), sextetBits_char _ (by omega)]
    simp only [byteBits, List.map_cons, List.map_nil, List.cons_append, List.nil_append,
      List.replicate, List.cons.injEq, bit_eq_iff, bit_false_iff, List.append_nil, and_true]
    refine ⟨?_, ?_, ?_, ?_, ?_, ?_, ?_, ?_, ?_, ?_, ?_, ?_, ?_, ?_, ?_, ?_, ?_, ?_⟩ <;> omega
  | case4 a b c rest ih =>
    obtain ⟨k, hk, e⟩ := ih
    have := a.toNat_lt
    have := b.toNat_lt
    have := c.toNat_lt
    refine ⟨k, hk, ?_⟩
    simp only [List.map_cons, List.flatMap_cons, List.append_assoc]
    rw [e, sextetBits_char _ (by omega), sextetBits_char _ (by omega), sextetBits_char _ (by omega),
      sextetBits_char _ (by omega)]
    simp only [byteBits, List.map_cons, List.map_nil, List.cons_append, List.nil_append,
      List.cons.injEq, bit_eq_iff, and_true]
    refine ⟨?_, ?_, ?_, ?_, ?_, ?_, ?_, ?_, ?_, ?_, ?_, ?_, ?_, ?_, ?_, ?_, ?_, ?_, ?_, ?_, ?_, ?_,
      ?_, ?_⟩ <;> omega

/-! ### Decoding -/

/-- Decoding of sextet values by groups of four (proof helper). -/
def dec' : List Nat → Bytes
  | a :: b :: c :: d :: rest =>
      UInt8.ofNat (a * 4 + b / 16) :: UInt8.ofNat (b % 16 * 16 + c / 4) ::
      UInt8.ofNat (c % 4 * 64 + d) :: dec' rest
  | [a, b, c] => [UInt8.ofNat (a * 4 + b / 16), UInt8.ofNat (b % 16 * 16 + c / 4)]
  | [a, b] => [UInt8.ofNat (a * 4 + b / 16)]
  | _ => []

theorem map_cons_map {α} (m : PyM (List α)) (a : α) (l : List α) :
    (m.map (l ++ ·)).map (a :: ·) = m.map ((a :: l) ++ ·) := by
  cases m <;> simp [Except.map]

/-- The decoder run over alphabet characters followed by a tail. -/
theorem a2bLoop_alpha (d tail : Bytes) (h : ∀ c ∈ d, c ∈ urlAlphabet) :
    ∃ left, a2bLoop (d.map fromUrl ++ tail) 0 0 0 =
      (a2bLoop tail (d.length % 4) left 0).map (dec' (d.map urlAlphabet.idxOf) ++ ·) := by
  match d with
  | [] =>
    refine ⟨0, ?_⟩
    simp [dec']; cases a2bLoop tail 0 0 0 <;> simp [Except.map]
  | [a] =>
    have ⟨ha, ha', _⟩ := b64Val_fromUrl a (h a (by simp))
    refine ⟨urlAlphabet.idxOf a, ?_⟩
    simp [dec', a2bLoop, ha, ha']
    cases a2bLoop tail 1 (urlAlphabet.idxOf a) 0 <;> simp [Except.map]
  | [a, b] =>
    have ⟨ha, ha', _⟩ := b64Val_fromUrl a (h a (by simp))
    have ⟨hb, hb', _⟩ := b64Val_fromUrl b (h b (by simp))
    refine ⟨urlAlphabet.idxOf b % 16, ?_⟩
    simp [dec', a2bLoop, ha, ha', hb, hb']
  | [a, b, c] =>
    have ⟨ha, ha', _⟩ := b64Val_fromUrl a (h a (by simp))
    have ⟨hb, hb', _⟩ := b64Val_fromUrl b (h b (by simp))
    have ⟨hc, hc', _⟩ := b64Val_fromUrl c (h c (by simp))
    refine ⟨urlAlphabet.idxOf c % 4, ?_⟩
    simp [dec', a2bLoop, ha, ha', hb, hb', hc, hc']
    cases a2bLoop tail 3 (urlAlphabet.idxOf c % 4) 0 <;> simp [Except.map]
  | a :: b :: c :: e :: rest =>
    have ⟨ha, ha', _⟩ := b64Val_fromUrl a (h a (by simp))
    have ⟨hb, hb', _⟩ := b64Val_fromUrl b (h b (by simp))
    have ⟨hc, hc', _⟩ := b64Val_fromUrl c (h c (by simp))
    have ⟨he, he', _⟩ := b64Val_fromUrl e (h e (by simp))
    obtain ⟨left, ih⟩ := a2bLoop_alpha rest tail (fun x hx => h x (by simp [hx]))
    refine ⟨left, ?_⟩
    simp only [List.map_cons, List.cons_append, dec', List.length_cons]
    simp only [a2bLoop, ha, ha', hb, hb', hc, hc', he, he', if_false, if_true]
    simp [ih]
    have : (rest.length + 1 + 1 + 1 + 1) % 4 = rest.length % 4 := by omega
    rw [this]
    cases a2bLoop tail (rest.length % 4) left 0 <;> simp [Except.map]

theorem bits3_1 (a b : Nat) (ha : a < 64) (hb : b < 64) :
    byteBits (UInt8.ofNat (a * 4 + b / 16)) =
      [bit 5 a, bit 4 a, bit 3 a, bit 2 a, bit 1 a, bit 0 a, bit 5 b, bit 4 b] := by
  simp only [byteBits, List.map_cons, List.map_nil, List.cons.injEq, bit_eq_iff,
    UInt8.toNat_ofNat', and_true]
  refine ⟨?_, ?_, ?_, ?_, ?_, ?_, ?_, ?_⟩ <;> omega

theorem bits3_2 (b c : Nat) (_hb : b < 64) (hc : c < 64) :
    byteBits (UInt8.ofNat (b % 16 * 16 + c / 4)) =
      [bit 3 b, bit 2 b, bit 1 b, bit 0 b, bit 5 c, bit 4 c, bit 3 c, bit 2 c] := by
  simp only [byteBits, List.map_cons, List.map_nil, List.cons.injEq, bit_eq_iff,
    UInt8.toNat_ofNat', and_true]
  refine ⟨?_, ?_, ?_, ?_, ?_, ?_, ?_, ?_⟩ <;> omega

theorem bits3_3 (c d : Nat) (_hc : c < 64) (hd : d < 64) :
    byteBits (UInt8.ofNat (c % 4 * 64 + d)) =
      [bit 1 c, bit 0 c, bit 5 d, bit 4 d, bit 3 d, bit 2 d, bit 1 d, bit 0 d] := by
  simp only [byteBits, List.map_cons, List.map_nil, List.cons.injEq, bit_eq_iff,
    UInt8.toNat_ofNat', and_true]
  refine ⟨?_, ?_, ?_, ?_, ?_, ?_, ?_, ?_⟩ <;> omega

theorem dec'_bits (d : Bytes) (h : ∀ c ∈ d, c ∈ urlAlphabet) (h4 : d.length % 4 ≠ 1) :
    DecodesTo d (dec' (d.map urlAlphabet.idxOf)) := by
  match d with
  | [] => exact ⟨[], by simp, by simp [dec']⟩
  | [a] => simp at h4
  | [a, b] =>
    have ha := (b64Val_fromUrl a (h a (by simp))).2.2.2.2.2
    have hb := (b64Val_fromUrl b (h b (by simp))).2.2.2.2.2
    refine ⟨[3, 2, 1, 0].map fun i => bit i (urlAlphabet.idxOf b), by simp, ?_⟩
    simp only [List.map_cons, List.map_nil, List.flatMap_cons, List.flatMap_nil, dec',
      bits3_1 _ _ ha hb, sextetBits, List.cons_append, List.nil_append]
  | [a, b, c] =>
    have ha := (b64Val_fromUrl a (h a (by simp))).2.2.2.2.2
    have hb := (b64Val_fromUrl b (h b (by simp))).2.2.2.2.2
    have hc := (b64Val_fromUrl c (h c (by simp))).2.2.2.2.2
    refine ⟨[1, 0].map fun i => bit i (urlAlphabet.idxOf c), by simp, ?_⟩
    simp only [List.map_cons, List.map_nil, List.flatMap_cons, List.flatMap_nil, dec',
      bits3_1 _ _ ha hb, bits3_2 _ _ hb hc, sextetBits, List.cons_append, List.nil_append]
  | a :: b :: c :: e :: rest =>
    have ha := (b64Val_fromUrl a (h a (by simp))).2.2.2.2.2
    have hb := (b64Val_fromUrl b (h b (by simp))).2.2.2.2.2
    have hc := (b64Val_fromUrl c (h c (by simp))).2.2.2.2.2
    have he := (b64Val_fromUrl e (h e (by simp))).2.2.2.2.2
    obtain ⟨r, hr, e1⟩ := dec'_bits rest (fun x hx => h x (by simp [hx]))
      (by simp only [List.length_cons] at h4; omega)
    refine ⟨r, hr, ?_⟩
    simp only [List.map_cons, List.flatMap_cons, dec', e1, sextetBits, List.map_nil,
      bits3_1 _ _ ha hb, bits3_2 _ _ hb hc, bits3_3 _ _ hc he, List.cons_append, List.nil_append]

end Verif
