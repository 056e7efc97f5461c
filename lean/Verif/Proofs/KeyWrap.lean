import Verif.Model.AesKeyWrap
import Verif.Spec.KeyWrap
import Verif.Proofs.Ints
/-
Lemmas for AES key wrap.
-/

namespace Verif
open Spec

/-! ### Fixed-width integers -/

theorem natToBytesW_length (w n : Nat) : (natToBytesW w n).length = w := by
  induction w generalizing n with
  | zero => rfl
  | succ w ih => simp [natToBytesW, ih]

theorem bytesToNat_append (a b : Bytes) :
    bytesToNat (a ++ b) = bytesToNat a * 256 ^ b.length + bytesToNat b := by
  rw [bytesToNat_eq, bytesToNat_eq, bytesToNat_eq, List.map_append, beValue_append, List.length_map]

theorem bytesToNat_lt (b : Bytes) : bytesToNat b < 256 ^ b.length := by
  rw [bytesToNat_eq]
  have := beValue_lt 256 (by decide) (b.map UInt8.toNat) (by
    intro x hx
    obtain ⟨y, _, rfl⟩ := List.mem_map.mp hx
    exact y.toNat_lt)
  simpa using this

theorem bytesToNat_singleton (c : UInt8) : bytesToNat [c] = c.toNat := by
  simp [bytesToNat]

theorem bytesToNat_natToBytesW (w n : Nat) : bytesToNat (natToBytesW w n) = n % 256 ^ w := by
  induction w generalizing n with
  | zero => simp [natToBytesW, bytesToNat, Nat.mod_one]
  | succ w ih =>
    rw [natToBytesW, bytesToNat_append, ih, bytesToNat_singleton, UInt8.toNat_ofNat']
    simp only [List.length_singleton, Nat.pow_one]
    rw [show 256 ^ (w + 1) = 256 * 256 ^ w by rw [Nat.pow_succ, Nat.mul_comm], Nat.mod_mul]
    omega

theorem bytesToNat_inj {a b : Bytes} (hl : a.length = b.length)
    (h : bytesToNat a = bytesToNat b) : a = b := by
  rw [bytesToNat_eq, bytesToNat_eq] at h
  have := beValue_inj 256 (by decide) _ _ (by simpa using hl)
    (by intro x hx; obtain ⟨y, _, rfl⟩ := List.mem_map.mp hx; exact y.toNat_lt)
    (by intro x hx; obtain ⟨y, _, rfl⟩ := List.mem_map.mp hx; exact y.toNat_lt) h
  exact (List.map_inj_right (fun x y => UInt8.toNat_inj.mp)).mp this

theorem natToBytesW_bytesToNat (b : Bytes) : natToBytesW b.length (bytesToNat b) = b := by
  apply bytesToNat_inj (natToBytesW_length _ _)
  rw [bytesToNat_natToBytesW, Nat.mod_eq_of_lt (bytesToNat_lt b)]

theorem natToBytesW_bytesToNat' {b : Bytes} {w : Nat} (h : b.length = w) :
    natToBytesW w (bytesToNat b) = b := by
  subst h; exact natToBytesW_bytesToNat b

/-! ### A loop and its mirror image -/

theorem foldlM_inverse {α σ : Type} (f g : σ → α → PyM σ) (Inv : σ → Prop) (P : α → Prop)
    (h : ∀ s a s', Inv s → P a → f s a = .ok s' → Inv s' ∧ g s' a = .ok s) :
    ∀ (l : List α) (s s' : σ), (∀ a ∈ l, P a) → Inv s → l.foldlM f s = .ok s' →
      Inv s' ∧ l.reverse.foldlM g s' = .ok s := by
  intro l
  induction l with
  | nil =>
    intro s s' _ hi e
    simp only [List.foldlM_nil, pure, Except.pure, Except.ok.injEq] at e
    subst e
    exact ⟨hi, rfl⟩
  | cons a l ih =>
    intro s s' hp hi e
    rw [List.foldlM_cons] at e
    cases hf : f s a with
    | error x => rw [hf] at e; simp [Bind.bind, Except.bind] at e
    | ok s1 =>
      rw [hf] at e
      obtain ⟨hi1, hg⟩ := h s a s1 hi (hp a (by simp)) hf
      obtain ⟨hi', e'⟩ := ih s1 s' (fun a ha => hp a (by simp [ha])) hi1 e
      refine ⟨hi', ?_⟩
      rw [List.reverse_cons, List.foldlM_append, e']
      simp [Bind.bind, Except.bind, hg, pure, Except.pure]

theorem foldlM_ok {α σ : Type} (f : σ → α → PyM σ) (Inv : σ → Prop) (P : α → Prop)
    (h : ∀ s a, Inv s → P a → ∃ s', f s a = .ok s' ∧ Inv s') :
    ∀ (l : List α) (s : σ), (∀ a ∈ l, P a) → Inv s → ∃ s', l.foldlM f s = .ok s' ∧ Inv s' := by
  intro l
  induction l with
  | nil => intro s _ hi; exact ⟨s, rfl, hi⟩
  | cons a l ih =>
    intro s hp hi
    obtain ⟨s1, e1, i1⟩ := h s a hi (hp a (by simp))
    obtain ⟨s2, e2, i2⟩ := ih s1 (fun a ha => hp a (by simp [ha])) i1
    exact ⟨s2, by rw [List.foldlM_cons, e1]; exact e2, i2⟩

theorem unwrapOrder_eq (n : Nat) : unwrapOrder n = (wrapOrder n).reverse := by
  simp [unwrapOrder, wrapOrder, List.flatMap_cons, List.map_reverse]

theorem wrapOrder_mem {n : Nat} {ji : Nat × Nat} (h : ji ∈ wrapOrder n) :
    ji.1 ≤ 5 ∧ 1 ≤ ji.2 ∧ ji.2 ≤ n := by
  unfold wrapOrder at h
  rw [List.mem_flatMap] at h
  obtain ⟨j, hj, h⟩ := h
  obtain ⟨i, hi, rfl⟩ := List.mem_map.mp h
  have hi : i < n := by simpa using hi
  have : j ≤ 5 := by simp at hj; omega
  exact ⟨this, by simp, by simp; omega⟩

/-- State invariant: `a` is a 64-bit integer, there are `n` registers of 8 bytes. -/
def KWInv (n : Nat) (st : Nat × List Bytes) : Prop :=
  st.1 < 2 ^ 64 ∧ st.2.length = n ∧ ∀ b ∈ st.2, b.length = 8

theorem pow64 : (256 : Nat) ^ 8 = 2 ^ 64 := by decide

theorem kw_getD {n : Nat} {st : Nat × List Bytes} (h : KWInv n st) {i : Nat} (hi : i < n) :
    (st.2.getD i []).length = 8 := by
  have hi' : i < st.2.length := by rw [h.2.1]; exact hi
  simp only [List.getD_eq_getElem?_getD, List.getElem?_eq_getElem hi', Option.getD_some]
  exact h.2.2 _ (List.getElem_mem hi')

theorem kw_set {n : Nat} {st : Nat × List Bytes} (h : KWInv n st) (i a : Nat) (b : Bytes)
    (ha : a < 2 ^ 64) (hb : b.length = 8) : KWInv n (a, st.2.set i b) := by
  refine ⟨ha, by simpa using h.2.1, ?_⟩
  intro x hx
  rcases List.mem_or_eq_of_mem_set hx with hx | rfl
  · exact h.2.2 x hx
  · exact hb

theorem set_getD_self {st : List Bytes} {i : Nat} (hi : i < st.length) :
    st.set i (st.getD i []) = st := by
  simp [List.getD_eq_getElem?_getD, List.getElem?_eq_getElem hi]

theorem getD_set_self {st : List Bytes} {i : Nat} (hi : i < st.length) (b : Bytes) :
    (st.set i b).getD i [] = b := by
  simp [List.getD_eq_getElem?_getD, hi]

/-- Undoing one wrap step. -/
theorem unwrapStep_wrapStep {C : BlockCipher} (hC : C.Lawful) {kek : Bytes} (hk : aesKeyOk kek)
    {n : Nat} {st st' : Nat × List Bytes} {ji : Nat × Nat} (hi : KWInv n st)
    (hp : 1 ≤ ji.2 ∧ ji.2 ≤ n) (h : wrapStep C kek n st ji = .ok st') :
    st'.1 < 2 ^ 64 → KWInv n st' ∧ unwrapStep C kek n st' ji = .ok st := by
  obtain ⟨a, r⟩ := st
  obtain ⟨j, i⟩ := ji
  have hir : i - 1 < r.length := by have := hi.2.1; simp only at this hp; omega
  have hblk := kw_getD hi (i := i - 1) (by simp only at hp; omega)
  simp only at hblk
  have ha : a < 2 ^ 64 := hi.1
  have hin : (natToBytesW 8 a ++ r.getD (i - 1) []).length = 16 := by
    rw [List.length_append, natToBytesW_length, hblk]
  have hout := hC.enc_length kek _ hk hin
  unfold wrapStep at h
  simp only [packQ, ha, if_true, Bind.bind, Except.bind, unpackQ, List.length_take, hout] at h
  simp only [show min 8 16 = 8 from rfl, if_true, Except.ok.injEq] at h
  subst h
  intro hlt
  have hinv : KWInv n (bytesToNat ((C.enc kek (natToBytesW 8 a ++ r.getD (i - 1) [])).take 8) ^^^
      (n * j + i), r.set (i - 1) ((C.enc kek (natToBytesW 8 a ++ r.getD (i - 1) [])).drop 8)) :=
    kw_set hi _ _ _ hlt (by rw [List.length_drop, hout])
  refine ⟨hinv, ?_⟩
  unfold unwrapStep
  simp only [Nat.xor_assoc, Nat.xor_self, Nat.xor_zero]
  have htake : ((C.enc kek (natToBytesW 8 a ++ r.getD (i - 1) [])).take 8).length = 8 := by
    rw [List.length_take, hout]; rfl
  have hlt2 : bytesToNat ((C.enc kek (natToBytesW 8 a ++ r.getD (i - 1) [])).take 8) < 2 ^ 64 := by
    have := bytesToNat_lt ((C.enc kek (natToBytesW 8 a ++ r.getD (i - 1) [])).take 8)
    rwa [htake, pow64] at this
  simp only [packQ, hlt2, if_true, Bind.bind, Except.bind, natToBytesW_bytesToNat' htake,
    getD_set_self hir, List.take_append_drop, hC.dec_enc kek _ hk hin, unpackQ]
  rw [List.take_left' (natToBytesW_length 8 a), List.drop_left' (natToBytesW_length 8 a)]
  simp only [natToBytesW_length, if_true, bytesToNat_natToBytesW, pow64, Nat.mod_eq_of_lt ha,
    List.set_set, set_getD_self hir]

/-- A wrap step succeeds and keeps the invariant while the counter fits in 64 bits. -/
theorem wrapStep_ok {C : BlockCipher} (hC : C.Lawful) {kek : Bytes} (hk : aesKeyOk kek)
    {n : Nat} {st : Nat × List Bytes} {ji : Nat × Nat} (hi : KWInv n st)
    (hp : 1 ≤ ji.2 ∧ ji.2 ≤ n) (ht : n * ji.1 + ji.2 < 2 ^ 64) :
    ∃ st', wrapStep C kek n st ji = .ok st' ∧ KWInv n st' := by
  obtain ⟨a, r⟩ := st
  obtain ⟨j, i⟩ := ji
  have hblk := kw_getD hi (i := i - 1) (by simp only at hp; omega)
  simp only at hblk
  have ha : a < 2 ^ 64 := hi.1
  have hin : (natToBytesW 8 a ++ r.getD (i - 1) []).length = 16 := by
    rw [List.length_append, natToBytesW_length, hblk]
  have hout := hC.enc_length kek _ hk hin
  have htake : ((C.enc kek (natToBytesW 8 a ++ r.getD (i - 1) [])).take 8).length = 8 := by
    rw [List.length_take, hout]; rfl
  have hlt2 : bytesToNat ((C.enc kek (natToBytesW 8 a ++ r.getD (i - 1) [])).take 8) < 2 ^ 64 := by
    have := bytesToNat_lt ((C.enc kek (natToBytesW 8 a ++ r.getD (i - 1) [])).take 8)
    rwa [htake, pow64] at this
  refine ⟨_, ?_, kw_set hi (i - 1) _ _ (Nat.xor_lt_two_pow hlt2 ht)
    (by rw [List.length_drop, hout] : ((C.enc kek (natToBytesW 8 a ++ r.getD (i - 1) [])).drop 8).length = 8)⟩
  unfold wrapStep
  simp only [packQ, ha, if_true, Bind.bind, Except.bind, unpackQ, htake]

/-- Undoing one unwrap step. -/
theorem wrapStep_unwrapStep {C : BlockCipher} (hC : C.Lawful) {kek : Bytes} (hk : aesKeyOk kek)
    {n : Nat} {st st' : Nat × List Bytes} {ji : Nat × Nat} (hi : KWInv n st)
    (hp : 1 ≤ ji.2 ∧ ji.2 ≤ n) (h : unwrapStep C kek n st ji = .ok st') :
    KWInv n st' ∧ wrapStep C kek n st' ji = .ok st := by
  obtain ⟨a, r⟩ := st
  obtain ⟨j, i⟩ := ji
  have hir : i - 1 < r.length := by have := hi.2.1; simp only at this hp; omega
  have hblk := kw_getD hi (i := i - 1) (by simp only at hp; omega)
  simp only at hblk
  have ha : a < 2 ^ 64 := hi.1
  unfold unwrapStep at h
  simp only [packQ] at h
  split at h
  · rename_i hx
    simp only [Bind.bind, Except.bind] at h
    have hin : (natToBytesW 8 (a ^^^ (n * j + i)) ++ r.getD (i - 1) []).length = 16 := by
      rw [List.length_append, natToBytesW_length, hblk]
    have hout := hC.dec_length kek _ hk hin
    have htake : ((C.dec kek (natToBytesW 8 (a ^^^ (n * j + i)) ++ r.getD (i - 1) [])).take
        8).length = 8 := by rw [List.length_take, hout]; rfl
    simp only [unpackQ, htake, if_true, Except.ok.injEq] at h
    subst h
    have hlt2 : bytesToNat ((C.dec kek (natToBytesW 8 (a ^^^ (n * j + i)) ++
        r.getD (i - 1) [])).take 8) < 2 ^ 64 := by
      have := bytesToNat_lt ((C.dec kek (natToBytesW 8 (a ^^^ (n * j + i)) ++
        r.getD (i - 1) [])).take 8)
      rwa [htake, pow64] at this
    refine ⟨kw_set hi _ _ _ hlt2 (by rw [List.length_drop, hout]), ?_⟩
    unfold wrapStep
    simp only [packQ, hlt2, if_true, Bind.bind, Except.bind, natToBytesW_bytesToNat' htake,
      getD_set_self hir, List.take_append_drop, hC.enc_dec kek _ hk hin, unpackQ]
    rw [List.take_left' (natToBytesW_length 8 _), List.drop_left' (natToBytesW_length 8 _)]
    simp only [natToBytesW_length, if_true, bytesToNat_natToBytesW, pow64, Nat.mod_eq_of_lt hx,
      List.set_set, set_getD_self hir, Nat.xor_assoc, Nat.xor_self, Nat.xor_zero]
  · simp [Bind.bind, Except.bind] at h

/-! ### Splitting into blocks -/

theorem range_blocks (b : Bytes) (n : Nat) (h : n * 8 ≤ b.length) :
    ((List.range n).map fun i => (b.drop (i * 8)).take 8).flatten = b.take (n * 8) ∧
    ∀ x ∈ (List.range n).map fun i => (b.drop (i * 8)).take 8, x.length = 8 := by
  induction n with
  | zero => simp
  | succ n ih =>
    obtain ⟨i1, i2⟩ := ih (by omega)
    refine ⟨?_, ?_⟩
    · rw [List.range_succ, List.map_append, List.flatten_append, i1]
      simp only [List.map_cons, List.map_nil, List.flatten_cons, List.flatten_nil, List.append_nil]
      rw [Nat.succ_mul, List.take_add]
    · intro x hx
      obtain ⟨i, hi, rfl⟩ := List.mem_map.mp hx
      have : i < n + 1 := by simpa using hi
      rw [List.length_take, List.length_drop]
      omega

theorem blocks_flatten (r : List Bytes) (h : ∀ x ∈ r, x.length = 8) :
    r.flatten.length = r.length * 8 ∧
    (List.range r.length).map (fun i => (r.flatten.drop (i * 8)).take 8) = r := by
  induction r with
  | nil => simp
  | cons x r ih =>
    obtain ⟨h1, h2⟩ := ih (fun y hy => h y (by simp [hy]))
    have hx := h x (by simp)
    refine ⟨by rw [List.flatten_cons, List.length_append, h1, hx, List.length_cons]; omega, ?_⟩
    rw [List.length_cons, List.range_succ_eq_map, List.map_cons, List.map_map]
    congr 1
    · simp [hx]
    · conv => rhs; rw [← h2]
      apply List.map_congr_left
      intro i _
      simp only [Function.comp, List.flatten_cons]
      rw [show (i.succ) * 8 = x.length + i * 8 by omega, List.drop_append, List.drop_eq_nil_of_le (by omega)]
      simp

end Verif
