import Verif.Model.Init
import Verif.Spec.Digits
/-
Lemmas on integer/byte-array conversion.
-/

namespace Verif
open Spec

theorem foldl_beValue (base : Nat) (ds : List Nat) (acc : Nat) :
    ds.foldl (fun acc d => acc * base + d) acc = acc * base ^ ds.length + beValue base ds := by
  induction ds generalizing acc with
  | nil => simp [beValue]
  | cons d ds ih =>
    rw [List.foldl_cons, ih, beValue, List.length_cons, Nat.pow_succ, Nat.add_mul,
      Nat.mul_assoc, Nat.mul_comm base, Nat.add_assoc]

theorem beValue_append (base : Nat) (a b : List Nat) :
    beValue base (a ++ b) = beValue base a * base ^ b.length + beValue base b := by
  induction a with
  | nil => simp [beValue]
  | cons d ds ih =>
    rw [List.cons_append, beValue, ih, beValue, List.length_append, Nat.pow_add, Nat.add_mul,
      Nat.mul_assoc, Nat.add_assoc]

theorem beValue_lt (base : Nat) (_hb : 0 < base) (ds : List Nat) (h : ∀ d ∈ ds, d < base) :
    beValue base ds < base ^ ds.length := by
  induction ds with
  | nil => simp [beValue]
  | cons d ds ih =>
    have h1 := ih (fun x hx => h x (by simp [hx]))
    have h2 := h d (by simp)
    rw [beValue, List.length_cons, Nat.pow_succ]
    calc d * base ^ ds.length + beValue base ds
        < d * base ^ ds.length + base ^ ds.length := by omega
      _ = (d + 1) * base ^ ds.length := by rw [Nat.add_mul, Nat.one_mul]
      _ ≤ base * base ^ ds.length := Nat.mul_le_mul_right _ h2
      _ = base ^ ds.length * base := Nat.mul_comm _ _

theorem bytesToNat_eq (b : Bytes) : bytesToNat b = beValue 256 (b.map UInt8.toNat) := by
  have h : ∀ acc, b.foldl (fun acc x => acc * 256 + x.toNat) acc =
      (b.map UInt8.toNat).foldl (fun acc d => acc * 256 + d) acc := by
    intro acc; rw [List.foldl_map]
  unfold bytesToNat
  rw [h, foldl_beValue]; simp

theorem hexDigits_lt16 {n : Nat} (h : n < 16) : hexDigits n = [n] := by
  rw [hexDigits]; simp [h]

theorem hex02_byte {n : Nat} (h : n < 256) : hex02 n = [n / 16, n % 16] := by
  unfold hex02
  split
  · rename_i h'
    rw [Nat.div_eq_of_lt h', Nat.mod_eq_of_lt h']
  · rw [hexDigits, if_neg (by omega), hexDigits_lt16 (by omega)]; rfl

theorem unhexlify_bytes (arr : List Nat) (h : ∀ x ∈ arr, x < 256) :
    unhexlify (arr.flatMap hex02) = .ok (arr.map UInt8.ofNat) := by
  induction arr with
  | nil => rfl
  | cons a arr ih =>
    rw [List.flatMap_cons, hex02_byte (h a (by simp))]
    simp only [List.cons_append, List.nil_append, unhexlify]
    rw [ih (fun x hx => h x (by simp [hx]))]
    have : a / 16 * 16 + a % 16 = a := by omega
    simp [Except.map, this]

theorem beValue_hex02 (arr : List Nat) (h : ∀ x ∈ arr, x < 256) :
    beValue 16 (arr.flatMap hex02) = beValue 256 arr ∧
      (arr.flatMap hex02).length = 2 * arr.length := by
  induction arr with
  | nil => simp [beValue]
  | cons a arr ih =>
    obtain ⟨e, l⟩ := ih (fun x hx => h x (by simp [hx]))
    rw [List.flatMap_cons, hex02_byte (h a (by simp))]
    simp only [List.cons_append, List.nil_append, List.length_cons, l]
    refine ⟨?_, by omega⟩
    rw [beValue, beValue, beValue, e, List.length_cons, l, Nat.pow_succ, Nat.pow_mul]
    have : (16 : Nat) ^ 2 = 256 := by decide
    rw [this]
    generalize 256 ^ arr.length = p
    have h1 : a / 16 * (p * 16) = (a / 16 * 16) * p := by
      rw [Nat.mul_comm p, Nat.mul_assoc]
    rw [h1, ← Nat.add_assoc, ← Nat.add_mul]
    have : a / 16 * 16 + a % 16 = a := by omega
    rw [this]

theorem intBase16_eq (ds : List Nat) (h : ds ≠ []) : intBase16 ds = .ok (beValue 16 ds) := by
  cases ds with
  | nil => exact absurd rfl h
  | cons d ds => simp only [intBase16]; rw [foldl_beValue]; simp

theorem intarr2long_eq (arr : List Nat) (hne : arr ≠ []) (h : ∀ x ∈ arr, x < 256) :
    intarr2long arr = .ok (beValue 256 arr) := by
  unfold intarr2long
  obtain ⟨e, l⟩ := beValue_hex02 arr h
  rw [intBase16_eq, e]
  intro h0
  rw [h0] at l
  cases arr with
  | nil => exact hne rfl
  | cons a arr => simp at l

theorem long2intarr_spec (n : Nat) : beValue 256 (long2intarr n) = n ∧
    (∀ x ∈ long2intarr n, x < 256) ∧ (∀ x ∈ (long2intarr n).head?, x ≠ 0) ∧
    (long2intarr n = [] ↔ n = 0) := by
  fun_induction long2intarr n with
  | case1 => simp [beValue]
  | case2 n h ih =>
    obtain ⟨h1, h2, h3, h4⟩ := ih
    refine ⟨?_, ?_, ?_, ?_⟩
    · rw [beValue_append, h1]; simp [beValue]; omega
    · intro x hx
      rcases List.mem_append.mp hx with hx | hx
      · exact h2 x hx
      · simp at hx; omega
    · intro x hx
      cases hl : long2intarr (n / 256) with
      | nil =>
        rw [hl] at hx
        simp at hx
        have := h4.mp hl
        omega
      | cons y ys =>
        rw [hl] at hx h3
        exact h3 x (by simpa using hx)
    · simp; omega

/-- Digit lists without leading zero are determined by their value. -/
theorem beValue_inj (base : Nat) (hb : 0 < base) : ∀ a b : List Nat, a.length = b.length →
    (∀ x ∈ a, x < base) → (∀ x ∈ b, x < base) → beValue base a = beValue base b → a = b := by
  intro a
  induction a with
  | nil => intro b hl _ _ _; cases b with
    | nil => rfl
    | cons => simp at hl
  | cons x a ih =>
    intro b hl ha hb' e
    cases b with
    | nil => simp at hl
    | cons y b =>
      have hl' : a.length = b.length := by simpa using hl
      rw [beValue, beValue, hl'] at e
      have l1 := beValue_lt base hb a (fun x hx => ha x (by simp [hx]))
      have l2 := beValue_lt base hb b (fun x hx => hb' x (by simp [hx]))
      rw [hl'] at l1
      have hxy : x = y := by
        have p : 0 < base ^ b.length := Nat.pow_pos hb
        have d1 : (x * base ^ b.length + beValue base a) / base ^ b.length = x := by
          rw [Nat.mul_comm, Nat.mul_add_div p, Nat.div_eq_of_lt l1]; simp
        have d2 : (y * base ^ b.length + beValue base b) / base ^ b.length = y := by
          rw [Nat.mul_comm, Nat.mul_add_div p, Nat.div_eq_of_lt l2]; simp
        rw [← d1, e, d2]
      subst hxy
      rw [ih b hl' (fun x hx => ha x (by simp [hx])) (fun x hx => hb' x (by simp [hx])) (by omega)]

theorem beValue_ge (base : Nat) (d : Nat) (ds : List Nat) (hd : d ≠ 0) :
    base ^ ds.length ≤ beValue base (d :: ds) := by
  rw [beValue]
  have : 1 * base ^ ds.length ≤ d * base ^ ds.length := Nat.mul_le_mul_right _ (by omega)
  omega

theorem beValue_inj' (base : Nat) (hb : 1 < base) (a b : List Nat)
    (ha : ∀ x ∈ a, x < base) (hb' : ∀ x ∈ b, x < base)
    (za : ∀ x ∈ a.head?, x ≠ 0) (zb : ∀ x ∈ b.head?, x ≠ 0)
    (e : beValue base a = beValue base b) : a = b := by
  apply beValue_inj base (by omega) a b ?_ ha hb' e
  have key : ∀ a b : List Nat, (∀ x ∈ b, x < base) → (∀ x ∈ a.head?, x ≠ 0) →
      beValue base a = beValue base b → ¬ b.length < a.length := by
    intro a b hb' za e hlt
    cases a with
    | nil => simp at hlt
    | cons x a =>
      have h1 := beValue_ge base x a (za x (by simp))
      have h2 := beValue_lt base (by omega) b hb'
      have h3 : base ^ b.length ≤ base ^ a.length :=
        Nat.pow_le_pow_right (by omega) (by simp at hlt; omega)
      omega
  have k1 := key a b hb' za e
  have k2 := key b a ha zb e.symm
  omega

theorem beValue_dropWhile (base : Nat) (a : List Nat) :
    beValue base (a.dropWhile (· == 0)) = beValue base a := by
  induction a with
  | nil => rfl
  | cons x a ih =>
    by_cases hx : x = 0
    · subst hx; simp [beValue, ih]
    · simp [hx]

theorem dropWhile_head (a : List Nat) : ∀ x ∈ (a.dropWhile (· == 0)).head?, x ≠ 0 := by
  induction a with
  | nil => simp
  | cons x a ih =>
    by_cases hx : x = 0
    · subst hx; simpa using ih
    · simp [hx]

theorem natToBytes_eq (n : Nat) : natToBytes n = (long2intarr n).map UInt8.ofNat := by
  fun_induction long2intarr n with
  | case1 => simp [natToBytes]
  | case2 n h ih => rw [natToBytes]; simp [h, ih]

theorem map_ofNat_toNat (arr : List Nat) (h : ∀ x ∈ arr, x < 256) :
    (arr.map UInt8.ofNat).map UInt8.toNat = arr := by
  rw [List.map_map]
  conv => rhs; rw [← List.map_id arr]
  apply List.map_congr_left
  intro x hx
  have := h x hx
  simp; omega

theorem bytesToNat_natToBytes (n : Nat) : bytesToNat (natToBytes n) = n := by
  obtain ⟨h1, h2, _⟩ := long2intarr_spec n
  rw [natToBytes_eq, bytesToNat_eq, map_ofNat_toNat _ h2, h1]

theorem hexDigits_spec (n : Nat) : beValue 16 (hexDigits n) = n ∧ (∀ x ∈ hexDigits n, x < 16) ∧
    hexDigits n ≠ [] ∧ (n ≠ 0 → ∀ x ∈ (hexDigits n).head?, x ≠ 0) := by
  fun_induction hexDigits n with
  | case1 n h => simp [beValue]; exact h
  | case2 n h ih =>
    obtain ⟨h1, h2, h3, h4⟩ := ih
    refine ⟨?_, ?_, by simp, ?_⟩
    · rw [beValue_append, h1]; simp [beValue]; omega
    · intro x hx
      rcases List.mem_append.mp hx with hx | hx
      · exact h2 x hx
      · simp at hx; omega
    · intro _ x hx
      cases hl : hexDigits (n / 16) with
      | nil => exact absurd hl h3
      | cons y ys =>
        rw [hl] at hx h4
        exact h4 (by omega) x (by simpa using hx)

theorem unhexlify_even (ds : List Nat) (h : ∀ x ∈ ds, x < 16) (he : ds.length % 2 = 0) :
    ∃ b, unhexlify ds = .ok b ∧ bytesToNat b = beValue 16 ds ∧ 2 * b.length = ds.length := by
  match ds with
  | [] => exact ⟨[], rfl, rfl, rfl⟩
  | [a] => simp at he
  | a :: c :: rest =>
    obtain ⟨b, e1, e2, e3⟩ := unhexlify_even rest (fun x hx => h x (by simp [hx]))
      (by simp only [List.length_cons] at he; omega)
    refine ⟨UInt8.ofNat (a * 16 + c) :: b, by simp [unhexlify, e1, Except.map], ?_, ?_⟩
    · have ha := h a (by simp)
      have hc := h c (by simp)
      rw [bytesToNat_eq] at e2 ⊢
      rw [List.map_cons, beValue, beValue, beValue, e2, List.length_map, UInt8.toNat_ofNat']
      have : (a * 16 + c) % 2 ^ 8 = a * 16 + c := by omega
      rw [this, List.length_cons, ← e3, Nat.pow_succ, Nat.pow_mul]
      have : (16 : Nat) ^ 2 = 256 := by decide
      rw [this, Nat.add_mul, Nat.mul_comm (256 ^ b.length) 16, Nat.mul_assoc, Nat.add_assoc]
    · simp only [List.length_cons]; omega

theorem unhexlify_odd (ds : List Nat) (he : ds.length % 2 = 1) :
    unhexlify ds = .error .binasciiError := by
  match ds with
  | [] => simp at he
  | [a] => rfl
  | a :: c :: rest =>
    rw [unhexlify, unhexlify_odd rest (by simp only [List.length_cons] at he; omega)]
    rfl

end Verif
