import Verif.Model.Elliptic
/-
Property C50: signed binary expansion (`/repo/src/jwkest/elliptic.py:240-274`).
-/

namespace Verif

/-- The integer denoted by a list of signed binary digits, most significant first. -/
def sbValue (l : List Int) : Int := l.foldl (fun v d => 2 * v + d) 0

/-- `gbd` of an odd number's even neighbours: `4 ∣ n` makes it at least 2, otherwise it is 1. -/
theorem gbdLoop_four (n i : Nat) (hn : 0 < n) (hi : 0 < i) (h : n % 4 = 0) (h4 : i = 1 ∨ i = 2 ∨ i = 4 ∨ 8 ≤ i) :
    8 ≤ gbdLoop n i := by
  fun_induction gbdLoop n i with
  | case1 i hc ih => exact ih (by omega) (by omega)
  | case2 i hc =>
    rcases h4 with rfl | rfl | rfl | h4
    · exact absurd ⟨Nat.mod_one n, hn, by omega⟩ hc
    · exact absurd ⟨by omega, hn, by omega⟩ hc
    · exact absurd ⟨h, hn, by omega⟩ hc
    · exact h4

theorem gbd_four (n : Nat) (hn : 0 < n) (h : n % 4 = 0) : 2 ≤ gbd n := by
  unfold gbd
  rw [if_neg (by omega)]
  have := gbdLoop_four n 1 hn (by omega) h (.inl rfl)
  omega

theorem gbd_two (n : Nat) (h : n % 4 = 2) : gbd n = 1 := by
  unfold gbd
  rw [if_neg (by omega), gbdLoop, if_pos ⟨Nat.mod_one n, by omega, by omega⟩, gbdLoop,
    if_pos ⟨by omega, by omega, by omega⟩, gbdLoop, if_neg (by omega)]

/-- The sign choice is by the residue modulo 4. -/
theorem signedBin_choice (n : Nat) (h1 : 1 < n) (h2 : n % 2 = 1) :
    gbd (n + 1) > gbd (n - 1) ↔ n % 4 = 3 := by
  constructor
  · intro h
    apply Decidable.by_contra
    intro h3
    have a := gbd_four (n - 1) (by omega) (by omega)
    have b := gbd_two (n + 1) (by omega)
    omega
  · intro h
    have a := gbd_four (n + 1) (by omega) (by omega)
    have b := gbd_two (n - 1) (by omega)
    omega

theorem sbFold (l : List Int) (v : Int) :
    l.foldl (fun v d => 2 * v + d) v = v * 2 ^ l.length + sbValue l := by
  induction l generalizing v with
  | nil => simp [sbValue]
  | cons d l ih =>
    unfold sbValue
    rw [List.foldl_cons, List.foldl_cons, ih, ih (2 * 0 + d), List.length_cons, Int.pow_succ,
      Int.add_mul, Int.add_mul]
    have : 2 * v * 2 ^ l.length = v * (2 ^ l.length * 2) := by
      rw [Int.mul_comm 2 v, Int.mul_assoc, Int.mul_comm 2]
    omega

theorem sbValue_cons (d : Int) (l : List Int) : sbValue (d :: l) = d * 2 ^ l.length + sbValue l := by
  unfold sbValue
  rw [List.foldl_cons, sbFold]
  simp [sbValue]

/-- Non-adjacency relative to the next digit. -/
def NonAdj : List Int → Prop
  | a :: b :: l => (a = 0 ∨ b = 0) ∧ NonAdj (b :: l)
  | _ => True

theorem NonAdj.cons {d : Int} {r : List Int} (hna : NonAdj r)
    (hd : d = 0 ∨ r.head? = none ∨ r.head? = some 0) : NonAdj (d :: r) := by
  cases r with
  | nil => trivial
  | cons e r =>
    refine ⟨?_, hna⟩
    simpa using hd

theorem sb_halve {n m : Nat} {d : Int} {r : List Int} (h : (n : Int) = 2 * m + d) :
    (m : Int) * 2 ^ (d :: r).length + sbValue (d :: r) = (n : Int) * 2 ^ r.length + sbValue r := by
  rw [sbValue_cons, List.length_cons, Int.pow_succ, h, Int.add_mul]
  have : (m : Int) * (2 ^ r.length * 2) = 2 * ↑m * 2 ^ r.length := by
    rw [Int.mul_comm 2 (m : Int), Int.mul_assoc, Int.mul_comm 2]
  omega

def IsDigit (d : Int) : Prop := d = -1 ∨ d = 0 ∨ d = 1

theorem digits_cons {d : Int} {r : List Int} (hd : IsDigit d) (hr : ∀ d ∈ r, IsDigit d) :
    ∀ x ∈ d :: r, IsDigit x := by
  intro x hx
  rcases List.mem_cons.mp hx with rfl | hx
  · exact hd
  · exact hr x hx

theorem signedBinLoop_spec (n : Nat) (r : List Int) (hr : ∀ d ∈ r, IsDigit d)
    (hna : NonAdj r) (hadj : r.head? = none ∨ r.head? = some 0 ∨ n % 2 = 0 ) :
    (∀ d ∈ signedBinLoop n r, IsDigit d) ∧
    sbValue (signedBinLoop n r) = (n : Int) * 2 ^ r.length + sbValue r ∧
    (∀ k, n ≤ 2 ^ k → (signedBinLoop n r).length ≤ r.length + k + 1) ∧
    NonAdj (signedBinLoop n r) := by
  have hk : ∀ {n k : Nat}, 1 < n → n ≤ 2 ^ k → ∃ j, k = j + 1 ∧ n ≤ 2 * 2 ^ j := by
    intro n k h1 h2
    cases k with
    | zero => simp at h2; omega
    | succ j => exact ⟨j, rfl, by rw [Nat.pow_succ] at h2; omega⟩
  fun_induction signedBinLoop n r with
  | case1 n r h1 h2 h3 ih =>
    rw [signedBin_choice n h1 h2] at h3
    have hz : r.head? = none ∨ r.head? = some 0 := by
      rcases hadj with h | h | h
      · exact .inl h
      · exact .inr h
      · omega
    obtain ⟨a, b, c, f⟩ := ih (digits_cons (.inl rfl) hr) (hna.cons (.inr hz)) (.inr (.inr (by omega)))
    refine ⟨a, ?_, ?_, f⟩
    · rw [b]; exact sb_halve (by omega)
    · intro k hk'
      obtain ⟨j, rfl, hj⟩ := hk h1 hk'
      have := c j (by omega)
      rw [List.length_cons] at this
      omega
  | case2 n r h1 h2 h3 ih =>
    rw [signedBin_choice n h1 h2] at h3
    have hz : r.head? = none ∨ r.head? = some 0 := by
      rcases hadj with h | h | h
      · exact .inl h
      · exact .inr h
      · omega
    obtain ⟨a, b, c, f⟩ := ih (digits_cons (.inr (.inr rfl)) hr) (hna.cons (.inr hz))
      (.inr (.inr (by omega)))
    refine ⟨a, ?_, ?_, f⟩
    · rw [b]; exact sb_halve (by omega)
    · intro k hk'
      obtain ⟨j, rfl, hj⟩ := hk h1 hk'
      have := c j (by omega)
      rw [List.length_cons] at this
      omega
  | case3 n r h1 h2 ih =>
    obtain ⟨a, b, c, f⟩ := ih (digits_cons (.inr (.inl rfl)) hr) (hna.cons (.inl rfl)) (.inr (.inl rfl))
    refine ⟨a, ?_, ?_, f⟩
    · rw [b]; exact sb_halve (by omega)
    · intro k hk'
      obtain ⟨j, rfl, hj⟩ := hk h1 hk'
      have := c j (by omega)
      rw [List.length_cons] at this
      omega
  | case4 n r h1 =>
    refine ⟨digits_cons (by unfold IsDigit; omega) hr, sbValue_cons _ _, ?_, ?_⟩
    · intro k _; rw [List.length_cons]; omega
    · apply hna.cons
      rcases hadj with h | h | h
      · exact .inr (.inl h)
      · exact .inr (.inr h)
      · exact .inl (by omega)

/-- C50: the digits are in {-1, 0, 1}. -/
theorem C50_digits (n : Nat) : ∀ d ∈ signedBin n, d = -1 ∨ d = 0 ∨ d = 1 :=
  (signedBinLoop_spec n [] (by simp) trivial (.inl rfl)).1

/-- C50: the digits denote `n`. -/
theorem C50_value (n : Nat) : sbValue (signedBin n) = n := by
  have := (signedBinLoop_spec n [] (by simp) trivial (.inl rfl)).2.1
  simpa [sbValue, signedBin] using this

/-- C50: at most one digit more than the bit length (`n < 2^k` has bit length at most `k`). -/
theorem C50_length (n k : Nat) (h : n ≤ 2 ^ k) : (signedBin n).length ≤ k + 1 := by
  have := (signedBinLoop_spec n [] (by simp) trivial (.inl rfl)).2.2.1 k h
  simpa [signedBin] using this

/-- C50: no two adjacent digits are both nonzero. -/
theorem C50_nonadjacent (n i : Nat) (a b : Int) (ha : (signedBin n)[i]? = some a)
    (hb : (signedBin n)[i + 1]? = some b) : a = 0 ∨ b = 0 := by
  have key : ∀ (l : List Int), NonAdj l → ∀ (i : Nat) (a b : Int), l[i]? = some a →
      l[i + 1]? = some b → a = 0 ∨ b = 0 := by
    intro l
    induction l with
    | nil => intro _ i a b h; simp at h
    | cons x l ih =>
      intro h i a b ha hb
      cases l with
      | nil => simp at hb
      | cons y l =>
        cases i with
        | zero => simp at ha hb; subst ha hb; exact h.1
        | succ i => exact ih h.2 i a b (by simpa using ha) (by simpa using hb)
  exact key _ (signedBinLoop_spec n [] (by simp) trivial (.inl rfl)).2.2.2 i a b ha hb

example : signedBin 15 = [1, 0, 0, 0, -1] := by decide +kernel

end Verif
