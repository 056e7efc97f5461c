import Verif.Proofs.Ints
import Verif.Proofs.Str
import Verif.Props.Base64
/-
Properties C05–C07: integer JWK parameters, integer arrays, comparisons
(`/repo/src/jwkest/__init__.py:82-136, 195-212`).
-/

namespace Verif
open Spec

/-- For every positive integer the text is the base64url spelling of its minimal big-endian bytes,
and `base64_to_long` (of the text or of its bytes) gives the integer back. -/
theorem C05_roundtrip (n : Nat) (hn : 0 < n) :
    ∃ s bs, longToBase64 n = .ok s ∧ asciiEncode s = .ok (b64e bs) ∧
      bytesValue bs = n ∧ (∀ x ∈ bs.head?, x ≠ 0) ∧
      base64ToLong s = .ok n ∧ base64ToLongBytes (b64e bs) = .ok n := by
  obtain ⟨h1, h2, h3, h4⟩ := long2intarr_spec n
  let bs : Bytes := (long2intarr n).map UInt8.ofNat
  have hne : long2intarr n ≠ [] := fun h => by have := h4.mp h; omega
  have hbs : bs.map UInt8.toNat = long2intarr n := map_ofNat_toNat _ h2
  have hB := C02_rfc4648 bs
  obtain ⟨s, hs⟩ := asciiDecode_of_lt (b := b64e bs)
    (fun c hc => (b64Val_fromUrl c (hB.1 c hc)).2.2.2.2.1)
  have e0 : longToBase64 n = .ok s := by
    unfold longToBase64 longToBase64Core
    rw [if_neg (by simpa using hne)]
    exact hs
  have e1 := asciiEncode_decode hs
  have e2 : base64ToLongBytes (b64e bs) = .ok n := by
    unfold base64ToLongBytes
    have hd := urlsafeB64decode_shape (b64e bs) [] 2 hB.1 (.inl rfl)
    have hl := isB64Url_length hB
    rw [if_pos (by omega)] at hd
    simp only [List.append_nil, List.replicate] at hd
    have hrt := C01_roundtrip bs
    rw [b64d_alpha hB.1, if_neg (by omega)] at hrt
    simp only [Except.ok.injEq] at hrt
    rw [hrt] at hd
    rw [hd]
    simp only [Bind.bind, Except.bind, hbs]
    rw [intarr2long_eq _ hne h2, h1]
  refine ⟨s, bs, e0, e1, ?_, ?_, ?_, e2⟩
  · unfold bytesValue; rw [hbs, h1]
  · intro x hx
    cases hl : long2intarr n with
    | nil => exact absurd hl hne
    | cons a l =>
      simp only [bs, hl, List.map_cons, List.head?_cons, Option.mem_def, Option.some.injEq] at hx
      have ha := h3 a (by simp [hl])
      have ha' := h2 a (by simp [hl])
      rw [← hx]
      intro h0
      have := congrArg UInt8.toNat h0
      simp at this
      omega
  · unfold base64ToLong
    rw [e1]
    exact e2

example : longToBase64 65537 = .ok "AQAB" ∧ base64ToLong "AQAB" = .ok 65537 := by decide +kernel

/-- `long_to_base64(0)` raises `TypeError`. -/
theorem C05_zero : longToBase64 0 = .error .typeError := by
  simp [longToBase64, longToBase64Core, long2intarr]

theorem loop_nonneg (n : Nat) : ∀ fuel, n < fuel → ∀ acc,
    long2intarrLoop fuel (n : Int) acc = some (long2intarr n ++ acc) := by
  induction n using Nat.strongRecOn with
  | _ n ih =>
    intro fuel hf acc
    cases fuel with
    | zero => omega
    | succ f =>
      rw [long2intarrLoop, long2intarr]
      by_cases h : n = 0
      · simp [h]
      · have h' : ¬ ((n : Int) = 0) := by omega
        rw [if_neg h']
        simp only [h, dif_neg, not_false_eq_true]
        have d1 : (n : Int).fdiv 256 = ((n / 256 : Nat) : Int) := by
          rw [Int.fdiv_eq_ediv_of_nonneg _ (by omega)]; omega
        have d2 : ((n : Int).fmod 256).toNat = n % 256 := by
          rw [Int.fmod_eq_emod_of_nonneg _ (by omega)]; omega
        rw [d1, d2, ih (n / 256) (by omega) f (by omega)]
        simp

theorem loop_neg : ∀ fuel (n : Int), n < 0 → ∀ acc, long2intarrLoop fuel n acc = none := by
  intro fuel
  induction fuel with
  | zero => intros; rfl
  | succ f ih =>
    intro n hn acc
    rw [long2intarrLoop, if_neg (by omega)]
    apply ih
    rw [Int.fdiv_eq_ediv_of_nonneg _ (by omega)]
    omega

/-- The `while` loop of `long2intarr` stops for every integer `n ≥ 0` (so the total function used
elsewhere is what the code computes) … -/
theorem C05_terminates (n : Nat) (fuel : Nat) (h : n < fuel) :
    longToBase64Fuel fuel (n : Int) = some (longToBase64 n) := by
  unfold longToBase64Fuel longToBase64
  rw [loop_nonneg n fuel h]
  simp

/-- … and never stops for a negative one. -/
theorem C05_diverges (n : Int) (h : n < 0) (fuel : Nat) : longToBase64Fuel fuel n = none := by
  unfold longToBase64Fuel
  rw [loop_neg fuel n h]; rfl

example : longToBase64Fuel 1000000 (-5) = none := C05_diverges _ (by decide) _

/-- `intarr2long(long2intarr(n)) = n` for `n > 0` (and `ValueError` for 0). -/
theorem C06_long_arr_long (n : Nat) :
    intarr2long (long2intarr n) = if n = 0 then .error .valueError else .ok n := by
  obtain ⟨h1, h2, h3, h4⟩ := long2intarr_spec n
  split
  · rename_i h; rw [h4.mpr h]; rfl
  · rename_i h
    rw [intarr2long_eq _ (fun h' => h (h4.mp h')) h2, h1]

/-- `intarr2long` is the big-endian value, and `long2intarr` recovers the array without its
leading zeros. -/
theorem C06_arr_long_arr (a : List Nat) (hne : a ≠ []) (h : ∀ x ∈ a, x < 256) :
    intarr2long a = .ok (beValue 256 a) ∧
      long2intarr (beValue 256 a) = a.dropWhile (· == 0) := by
  refine ⟨intarr2long_eq a hne h, ?_⟩
  obtain ⟨h1, h2, h3, h4⟩ := long2intarr_spec (beValue 256 a)
  apply beValue_inj' 256 (by decide) _ _ h2 ?_ h3 (dropWhile_head a)
  · rw [h1, beValue_dropWhile]
  · intro x hx
    exact h x ((List.dropWhile_sublist _).subset hx)

example : intarr2long [0, 0, 1, 2] = .ok 258 ∧ long2intarr 258 = [1, 2] := by decide +kernel

/-- `intarr2bin` packs exactly the bytes. -/
theorem C06_intarr2bin (a : List Nat) (h : ∀ x ∈ a, x < 256) :
    ∃ b, intarr2bin a = .ok b ∧ b.map UInt8.toNat = a :=
  ⟨_, unhexlify_bytes a h, map_ofNat_toNat a h⟩

/-- `long2hexseq(n)` returns the minimal big-endian bytes when the hexadecimal length is even, and
raises `binascii.Error` when it is odd (in particular for 0). -/
theorem C06_long2hexseq (n : Nat) :
    ((∃ k, 16 ^ (2 * k + 1) ≤ n ∧ n < 16 ^ (2 * k + 2)) →
      ∃ b, long2hexseq n = .ok b ∧ bytesValue b = n ∧ ∀ x ∈ b.head?, x ≠ 0) ∧
    (¬ (∃ k, 16 ^ (2 * k + 1) ≤ n ∧ n < 16 ^ (2 * k + 2)) →
      long2hexseq n = .error .binasciiError) := by
  obtain ⟨h1, h2, h3, h4⟩ := hexDigits_spec n
  have hlt := beValue_lt 16 (by decide) _ h2
  rw [h1] at hlt
  have hge : n ≠ 0 → 16 ^ ((hexDigits n).length - 1) ≤ n := by
    intro hn
    cases hl : hexDigits n with
    | nil => exact absurd hl h3
    | cons d ds =>
      have := beValue_ge 16 d ds (h4 hn d (by simp [hl]))
      rw [← hl, h1] at this
      simpa using this
  have hpos : 0 < (hexDigits n).length := List.length_pos_iff.mpr h3
  have pinj : ∀ a b, a < b → (16 : Nat) ^ a < 16 ^ b := fun a b h =>
    Nat.pow_lt_pow_right (by decide) h
  have hk : (∃ k, 16 ^ (2 * k + 1) ≤ n ∧ n < 16 ^ (2 * k + 2)) ↔ (hexDigits n).length % 2 = 0 := by
    constructor
    · rintro ⟨k, ka, kb⟩
      have hn : n ≠ 0 := by
        have : 0 < (16 : Nat) ^ (2 * k + 1) := Nat.pow_pos (by decide)
        omega
      have hg := hge hn
      have : (hexDigits n).length = 2 * k + 2 := by
        rcases Nat.lt_trichotomy (hexDigits n).length (2 * k + 2) with h | h | h
        · have : (16 : Nat) ^ (hexDigits n).length ≤ 16 ^ (2 * k + 1) :=
            Nat.pow_le_pow_right (by decide) (by omega)
          omega
        · exact h
        · have : (16 : Nat) ^ (2 * k + 2) ≤ 16 ^ ((hexDigits n).length - 1) :=
            Nat.pow_le_pow_right (by decide) (by omega)
          omega
      omega
    · intro he
      have hn : n ≠ 0 := by
        rintro rfl
        rw [hexDigits_lt16 (by decide)] at he
        simp at he
      refine ⟨(hexDigits n).length / 2 - 1, ?_, ?_⟩
      · have := hge hn
        rwa [show 2 * ((hexDigits n).length / 2 - 1) + 1 = (hexDigits n).length - 1 by omega]
      · rwa [show 2 * ((hexDigits n).length / 2 - 1) + 2 = (hexDigits n).length by omega]
  rw [hk]
  constructor
  · intro he
    obtain ⟨b, e1, e2, e3⟩ := unhexlify_even _ h2 he
    refine ⟨b, e1, ?_, ?_⟩
    · unfold bytesValue; rw [← bytesToNat_eq, e2, h1]
    · intro x hx hx0
      cases b with
      | nil => simp at hx
      | cons y ys =>
        simp at hx; subst hx; subst hx0
        have hn : n ≠ 0 := by
          rintro rfl
          rw [hexDigits_lt16 (by decide)] at he; simp at he
        have hg := hge hn
        rw [bytesToNat_eq] at e2
        have : beValue 256 (ys.map UInt8.toNat) < 256 ^ ys.length := by
          have := beValue_lt 256 (by decide) (ys.map UInt8.toNat) (by
            intro x hx
            obtain ⟨z, _, rfl⟩ := List.mem_map.mp hx
            exact z.toNat_lt)
          simpa using this
        rw [List.map_cons, beValue, h1] at e2
        have h0 : (0 : UInt8).toNat = 0 := rfl
        rw [h0] at e2
        have l : (hexDigits n).length - 1 = 2 * ys.length + 1 := by
          simp only [List.length_cons] at e3; omega
        rw [l, Nat.pow_succ, Nat.pow_mul, show (16 : Nat) ^ 2 = 256 by decide] at hg
        omega
  · intro he
    exact unhexlify_odd _ (by omega)

example : ∃ k, 16 ^ (2 * k + 1) ≤ 0x10203 * 16 ∧ 0x10203 * 16 < 16 ^ (2 * k + 2) :=
  ⟨2, by decide, by decide⟩

/-! ### C07 comparisons -/

theorem or_fold_zero {α} (f : α → Nat) (l : List α) (r : Nat) :
    l.foldl (fun r p => r ||| f p) r = 0 ↔ r = 0 ∧ ∀ p ∈ l, f p = 0 := by
  induction l generalizing r with
  | nil => simp
  | cons p l ih =>
    rw [List.foldl_cons, ih, Nat.or_eq_zero_iff]
    simp [and_assoc]

theorem zip_all_eq {α} : ∀ (a b : List α), a.length = b.length →
    ((∀ p ∈ List.zip a b, p.1 = p.2) ↔ a = b) := by
  intro a
  induction a with
  | nil => intro b h; cases b <;> simp_all
  | cons x a ih =>
    intro b h
    cases b with
    | nil => simp at h
    | cons y b =>
      simp only [List.zip_cons_cons, List.mem_cons, forall_eq_or_imp, List.cons.injEq]
      rw [ih b (by simpa using h)]

theorem nat_xor_eq_zero (a b : Nat) : a ^^^ b = 0 ↔ a = b := by
  constructor
  · intro h
    have : (a ^^^ b) ^^^ b = 0 ^^^ b := by rw [h]
    rwa [Nat.xor_assoc, Nat.xor_self, Nat.xor_zero, Nat.zero_xor] at this
  · rintro rfl; exact Nat.xor_self a

theorem C07_safe_str_cmp (a b : String) : safeStrCmp a.toList b.toList = true ↔ a = b := by
  unfold safeStrCmp
  rw [← String.toList_inj]
  split
  · rename_i h
    simp
    intro h'; rw [h'] at h; exact h rfl
  · rename_i h
    rw [beq_iff_eq, or_fold_zero, ← zip_all_eq _ _ (by omega)]
    simp only [nat_xor_eq_zero, true_and, Char.toNat_inj]

theorem C07_constant_time_compare (a b : Bytes) : constantTimeCompare a b = true ↔ a = b := by
  unfold constantTimeCompare
  split
  · rename_i h
    simp
    intro h'; rw [h'] at h; exact h rfl
  · rename_i h
    rw [beq_iff_eq]
    have : ∀ (l : List (UInt8 × UInt8)) (r : UInt8),
        l.foldl (fun r p => r ||| (p.1 ^^^ p.2)) r = 0 ↔ r = 0 ∧ ∀ p ∈ l, p.1 = p.2 := by
      intro l
      induction l with
      | nil => simp
      | cons p l ih =>
        intro r
        rw [List.foldl_cons, ih, UInt8.or_eq_zero_iff, UInt8.xor_eq_zero_iff]
        simp [and_assoc]
    rw [this, ← zip_all_eq _ _ (by omega)]
    simp

end Verif
