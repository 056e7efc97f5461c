import Verif.Proofs.Gf
import Verif.Proofs.Cbc
import Verif.Proofs.LongBytes
import Mathlib.Data.List.GetD
/-
GCM: the precomputed table, the blocks that are hashed, counter mode.
-/

namespace Verif
open Polynomial Spec

theorem mapM_ok {α β : Type} (f : α → PyM β) (g : α → β) (l : List α) (h : ∀ x ∈ l, f x = .ok (g x)) :
    l.mapM f = .ok (l.map g) := by
  induction l with
  | nil => rfl
  | cons a l ih =>
    rw [List.mapM_cons, h a (by simp), ih fun x hx => h x (by simp [hx])]
    rfl

/-- The value of the multiplication loop. -/
def gfVal (x y : ℕ) : ℕ := ((List.range 128).reverse.foldl (gfStep y) (0, x)).1

theorem gfMul_val (x y : ℕ) (hx : x < 2 ^ 128) (hy : y < 2 ^ 128) :
    gfMul x y = .ok (gfVal x y) ∧ gfVal x y < 2 ^ 128 ∧
      gfφ (blockPoly (gfVal x y)) = gfφ (blockPoly x) * gfφ (blockPoly y) := by
  obtain ⟨r, h1, h2, h3⟩ := gfMul_spec x y hx hy
  have : gfVal x y = r := by
    unfold gfMul at h1
    rw [if_neg (not_not.mpr hx), if_neg (not_not.mpr hy)] at h1
    simp only at h1
    split at h1
    · cases h1
    · simpa [gfVal] using h1
  rw [this, ← map_mul]
  exact ⟨h1, h2, gfφ_iff.mpr h3⟩

/-- The invariant of an `AES_GCM` object: set up by the constructor, kept by all methods. -/
structure Gcm.Valid (C : BlockCipher) (g : Gcm) : Prop where
  key_ok : aesKeyOk g.masterKey = true
  auth_eq : g.authKey = bytesToNat (C.enc g.masterKey (List.replicate 16 0))
  auth_lt : g.authKey < 2 ^ 128
  table : g.preTable = (List.range 16).map fun i => (List.range 256).map fun j =>
    gfVal g.authKey (j <<< (8 * i))

theorem shl_lt {i j : ℕ} (hi : i < 16) (hj : j < 256) : j <<< (8 * i) < 2 ^ 128 := by
  rw [Nat.shiftLeft_eq]
  calc j * 2 ^ (8 * i) < 2 ^ 8 * 2 ^ (8 * i) := by
        exact Nat.mul_lt_mul_of_pos_right hj (Nat.pow_pos (by norm_num))
    _ = 2 ^ (8 + 8 * i) := by rw [pow_add]
    _ ≤ 2 ^ 128 := Nat.pow_le_pow_right (by norm_num) (by omega)

theorem block_lt {C : BlockCipher} (hC : C.Lawful) {k b : Bytes} (hk : aesKeyOk k = true)
    (hb : b.length = 16) : bytesToNat (C.enc k b) < 2 ^ 128 := by
  have := bytesToNat_lt (C.enc k b)
  rw [hC.enc_length k b hk hb] at this
  exact lt_of_lt_of_eq this (by norm_num)

/-- The constructor succeeds exactly for AES key sizes and yields a valid object. -/
theorem Gcm.new_spec {C : BlockCipher} (hC : C.Lawful) (k : ℕ) :
    (aesKeyOk (longToBytes k 16) = true → ∃ g, Gcm.new C k = .ok g ∧ g.Valid C ∧
      g.masterKey = longToBytes k 16 ∧ g.prevInit = none) ∧
    (aesKeyOk (longToBytes k 16) = false → Gcm.new C k = .error .valueError) := by
  constructor
  · intro hk
    have hlt := block_lt hC hk (b := List.replicate 16 0) (by simp)
    have ht : ((List.range 16).mapM fun i => (List.range 256).mapM fun j =>
        gfMul (bytesToNat (C.enc (longToBytes k 16) (List.replicate 16 0))) (j <<< (8 * i))) =
        .ok ((List.range 16).map fun i => (List.range 256).map fun j =>
          gfVal (bytesToNat (C.enc (longToBytes k 16) (List.replicate 16 0))) (j <<< (8 * i))) := by
      apply mapM_ok
      intro i hi
      apply mapM_ok
      intro j hj
      exact (gfMul_val _ _ hlt (shl_lt (List.mem_range.mp hi) (List.mem_range.mp hj))).1
    refine ⟨⟨longToBytes k 16, bytesToNat (C.enc (longToBytes k 16) (List.replicate 16 0)),
      (List.range 16).map fun i => (List.range 256).map fun j =>
        gfVal (bytesToNat (C.enc (longToBytes k 16) (List.replicate 16 0))) (j <<< (8 * i)), none⟩,
      ?_, ⟨hk, rfl, hlt, rfl⟩, rfl, rfl⟩
    unfold Gcm.new
    simp only [aesNew, hk, if_true, Bind.bind, Except.bind]
    rw [ht]
  · intro hk
    unfold Gcm.new
    simp only [aesNew, hk, Bool.false_eq_true, if_false, Bind.bind, Except.bind]

theorem blockPoly_mod (n : ℕ) : blockPoly (n % 2 ^ 128) = blockPoly n := by
  unfold blockPoly
  refine Finset.sum_congr rfl fun i hi => ?_
  rw [Finset.mem_range] at hi
  rw [Nat.testBit_mod_two_pow]
  simp [show 127 - i < 128 by omega]

theorem mod_split (v m : ℕ) :
    v % 2 ^ (8 * (m + 1)) = (v % 2 ^ (8 * m)) ^^^ (((v >>> (8 * m)) &&& 0xFF) <<< (8 * m)) := by
  apply Nat.eq_of_testBit_eq
  intro i
  rw [Nat.testBit_mod_two_pow, Nat.testBit_xor, Nat.testBit_mod_two_pow, Nat.testBit_shiftLeft,
    show (0xFF : ℕ) = 2 ^ 8 - 1 by norm_num, Nat.and_two_pow_sub_one_eq_mod,
    Nat.testBit_mod_two_pow, Nat.testBit_shiftRight]
  by_cases h1 : i < 8 * m
  · simp [h1, show i < 8 * (m + 1) by omega, show ¬ 8 * m ≤ i by omega]
  · have h2 : 8 * m + (i - 8 * m) = i := by omega
    rw [h2]
    by_cases h3 : i < 8 * (m + 1)
    · simp [h1, h3, show 8 * m ≤ i by omega, show i - 8 * m < 8 by omega]
    · simp [h1, h3, show ¬ i - 8 * m < 8 by omega]

/-- The table multiplication is the field multiplication by the authentication key. -/
theorem timesAuthKey_spec {C : BlockCipher} {g : Gcm} (hg : g.Valid C) (val : ℕ) :
    g.timesAuthKey val < 2 ^ 128 ∧
    gfφ (blockPoly (g.timesAuthKey val)) = gfφ (blockPoly g.authKey) * gfφ (blockPoly val) := by
  have key : ∀ m ≤ 16,
      let s := (List.range m).foldl (fun st i =>
        (st.1 ^^^ (g.preTable.getD i []).getD (st.2 &&& 0xFF) 0, st.2 >>> 8)) (0, val)
      s.1 < 2 ^ 128 ∧ s.2 = val >>> (8 * m) ∧
        gfφ (blockPoly s.1) = gfφ (blockPoly g.authKey) * gfφ (blockPoly (val % 2 ^ (8 * m))) := by
    intro m
    induction m with
    | zero => intro _; refine ⟨by simp, by simp, ?_⟩; simp [Nat.mod_one]
    | succ m ih =>
      intro hm
      obtain ⟨h1, h2, h3⟩ := ih (by omega)
      rw [List.range_succ, List.foldl_append, List.foldl_cons, List.foldl_nil]
      generalize (List.range m).foldl (fun st i =>
        (st.1 ^^^ (g.preTable.getD i []).getD (st.2 &&& 0xFF) 0, st.2 >>> 8)) (0, val) = s at h1 h2 h3
      obtain ⟨res, v⟩ := s
      simp only at h1 h2 h3 ⊢
      have hj : v &&& 0xFF < 256 := lt_of_le_of_lt Nat.and_le_right (by norm_num)
      have hent : (g.preTable.getD m []).getD (v &&& 0xFF) 0 =
          gfVal g.authKey ((v &&& 0xFF) <<< (8 * m)) := by
        rw [hg.table]
        simp [List.getD, show m < 16 by omega, hj]
      obtain ⟨_, e2, e3⟩ := gfMul_val g.authKey _ hg.auth_lt (shl_lt (show m < 16 by omega) hj)
      rw [hent]
      refine ⟨Nat.xor_lt_two_pow h1 e2, ?_, ?_⟩
      · rw [h2, ← Nat.shiftRight_add]
        rfl
      · rw [mod_split, blockPoly_xor, blockPoly_xor, map_add, map_add, mul_add, h3, e3, h2]
  obtain ⟨h1, _, h3⟩ := key 16 le_rfl
  exact ⟨h1, by rw [← blockPoly_mod val]; exact h3⟩

/-! ### The blocks -/

theorem paddedBlocks_nil : paddedBlocks [] = [] := by rw [paddedBlocks]; simp

theorem paddedBlocks_cons16 (b : Bytes) (h : 16 ≤ b.length) :
    paddedBlocks b = bytesToNat (b.take 16) :: paddedBlocks (b.drop 16) := by
  rw [paddedBlocks, if_neg (by omega), show 16 - b.length = 0 by omega]
  simp

theorem paddedBlocks_append (a b : Bytes) (h : a.length % 16 = 0) :
    paddedBlocks (a ++ b) = paddedBlocks a ++ paddedBlocks b := by
  induction hn : a.length using Nat.strong_induction_on generalizing a with
  | _ n ih =>
    subst hn
    by_cases h0 : a.length = 0
    · have : a = [] := List.eq_nil_of_length_eq_zero h0
      subst this
      rw [paddedBlocks_nil]; rfl
    · have h16 : 16 ≤ a.length := by omega
      rw [paddedBlocks_cons16 (a ++ b) (by simp; omega), paddedBlocks_cons16 a h16,
        List.take_append_of_le_length h16, List.drop_append_of_le_length h16,
        ih (a.drop 16).length (by simp; omega) (a.drop 16) (by simp; omega) rfl]
      rfl

theorem pad16_length (b : Bytes) : (pad16 b).length % 16 = 0 := by
  unfold pad16
  split
  · omega
  · simp; omega

theorem pad16_prefix (b : Bytes) : ∃ k, pad16 b = b ++ List.replicate k 0 ∧ k < 16 := by
  unfold pad16
  split
  · exact ⟨0, by simp⟩
  · exact ⟨_, rfl, by omega⟩

theorem paddedBlocks_pad16 (b : Bytes) : paddedBlocks (pad16 b) = paddedBlocks b := by
  induction hn : b.length using Nat.strong_induction_on generalizing b with
  | _ n ih =>
    subst hn
    by_cases h16 : 16 ≤ b.length
    · have hp : pad16 b = b.take 16 ++ pad16 (b.drop 16) := by
        unfold pad16
        rw [List.length_drop]
        by_cases h : 0 = b.length % 16
        · rw [if_pos h, if_pos (by omega), List.take_append_drop]
        · rw [if_neg h, if_neg (by omega), ← List.append_assoc, List.take_append_drop,
            show (b.length - 16) % 16 = b.length % 16 by omega]
      rw [paddedBlocks_cons16 b h16, hp, paddedBlocks_append _ _ (by simp; omega),
        ih (b.drop 16).length (by simp; omega) _ rfl, paddedBlocks_cons16 (b.take 16) (by simp; omega)]
      rw [List.take_take, Nat.min_self, List.drop_take, Nat.sub_self, List.take_zero, paddedBlocks_nil]
      rfl
    · by_cases h0 : b.length = 0
      · have : b = [] := List.eq_nil_of_length_eq_zero h0
        subst this
        rfl
      · have hp : pad16 b = b ++ List.replicate (16 - b.length) 0 := by
          unfold pad16
          rw [if_neg (by omega), Nat.mod_eq_of_lt (by omega)]
        rw [hp, paddedBlocks_cons16 _ (by simp; omega), paddedBlocks.eq_1 b, if_neg h0,
          List.take_of_length_le (by simp; omega), List.take_of_length_le (show b.length ≤ 16 by omega),
          List.drop_eq_nil_of_le (by simp; omega), List.drop_eq_nil_of_le (show b.length ≤ 16 by omega)]

theorem slices_eq (d : Bytes) (h : d.length % 16 = 0) :
    (List.range (d.length / 16)).map (fun i => bytesToNat ((d.drop (i * 16)).take 16)) =
      paddedBlocks d := by
  induction hn : d.length using Nat.strong_induction_on generalizing d with
  | _ n ih =>
    subst hn
    by_cases h0 : d.length = 0
    · have : d = [] := List.eq_nil_of_length_eq_zero h0
      subst this
      rw [paddedBlocks_nil]; rfl
    · have h16 : 16 ≤ d.length := by omega
      rw [paddedBlocks_cons16 d h16,
        ← ih (d.drop 16).length (by simp; omega) (d.drop 16) (by simp; omega) rfl,
        show d.length / 16 = (d.drop 16).length / 16 + 1 by rw [List.length_drop]; omega,
        List.range_succ_eq_map, List.map_cons, List.map_map]
      congr 1
      apply List.map_congr_left
      intro i _
      simp only [Function.comp, List.drop_drop]
      rw [show i.succ * 16 = 16 + i * 16 by rw [Nat.succ_mul]; omega]

theorem ghash_spec {C : BlockCipher} {g : Gcm} (hg : g.Valid C) (aad txt : Bytes)
    (hl : 8 * txt.length < 2 ^ 64) :
    g.ghash aad txt < 2 ^ 128 ∧
    blockPoly (g.ghash aad txt) = ghashPoly (blockPoly g.authKey) (gcmBlocks aad txt) := by
  have hd : (pad16 aad ++ pad16 txt).length % 16 = 0 := by
    have := pad16_length aad
    have := pad16_length txt
    rw [List.length_append]; omega
  have hb : paddedBlocks (pad16 aad ++ pad16 txt) = paddedBlocks aad ++ paddedBlocks txt := by
    rw [paddedBlocks_append _ _ (pad16_length aad), paddedBlocks_pad16, paddedBlocks_pad16]
  have hlast : ((8 * aad.length) <<< 64) ||| (8 * txt.length) =
      8 * aad.length * 2 ^ 64 + 8 * txt.length := by
    rw [← Nat.shiftLeft_add_eq_or_of_lt hl, Nat.shiftLeft_eq]
  have step : ∀ (y b : ℕ) (P : (ZMod 2)[X]), blockPoly y = P →
      g.timesAuthKey (y ^^^ b) < 2 ^ 128 ∧ blockPoly (g.timesAuthKey (y ^^^ b)) =
        ((P + blockPoly b) * blockPoly g.authKey) %ₘ gcmPoly := by
    intro y b P hy
    obtain ⟨h1, h2⟩ := timesAuthKey_spec hg (y ^^^ b)
    refine ⟨h1, ?_⟩
    rw [← gfφ_iff, h2, blockPoly_xor, hy, ← map_mul, mul_comm]
  have hfold : ∀ (l : List ℕ) (y : ℕ) (P : (ZMod 2)[X]), blockPoly y = P →
      blockPoly (l.foldl (fun t b => g.timesAuthKey (t ^^^ b)) y) =
        l.foldl (fun y b => ((y + blockPoly b) * blockPoly g.authKey) %ₘ gcmPoly) P := by
    intro l
    induction l with
    | nil => intro y P h; exact h
    | cons b l ih => intro y P h; exact ih _ _ (step y b P h).2
  unfold Gcm.ghash
  simp only
  rw [hlast, ← List.foldl_map (f := fun i => bytesToNat (((pad16 aad ++ pad16 txt).drop (i * 16)).take 16))
    (g := fun t b => g.timesAuthKey (t ^^^ b)), slices_eq _ hd, hb]
  have h0 := hfold (paddedBlocks aad ++ paddedBlocks txt) 0 0 blockPoly_zero
  obtain ⟨h1, h2⟩ := step _ (8 * aad.length * 2 ^ 64 + 8 * txt.length) _ h0
  refine ⟨h1, ?_⟩
  rw [h2]
  unfold ghashPoly gcmBlocks
  rw [List.foldl_append (l' := [_]), List.foldl_cons, List.foldl_nil]

/-! ### Counter mode -/

theorem flatMap_getD {α : Type} (f : α → Bytes) (l : List α) (h : ∀ x ∈ l, (f x).length = 16) (i : ℕ)
    (d : α) (hi : i < 16 * l.length) :
    (l.flatMap f).getD i 0 = (f (l.getD (i / 16) d)).getD (i % 16) 0 := by
  induction l generalizing i with
  | nil => simp at hi
  | cons a l ih =>
    rw [List.flatMap_cons]
    have ha := h a (by simp)
    by_cases hlt : i < 16
    · rw [List.getD_append _ _ _ _ (by omega), Nat.div_eq_of_lt hlt, Nat.mod_eq_of_lt hlt]
      rfl
    · rw [List.getD_append_right _ _ _ _ (by omega), ha,
        ih (fun x hx => h x (by simp [hx])) _ (by simp at hi; omega),
        show i / 16 = (i - 16) / 16 + 1 by omega, show (i - 16) % 16 = i % 16 by omega]
      rfl

theorem natToBytesW_mod (w n : ℕ) : natToBytesW w (n % 256 ^ w) = natToBytesW w n := by
  apply bytesToNat_inj
  · rw [natToBytesW_length, natToBytesW_length]
  · rw [bytesToNat_natToBytesW, bytesToNat_natToBytesW, Nat.mod_mod]

/-- What counter mode computes, byte by byte. -/
theorem crypt_spec {C : BlockCipher} (hC : C.Lawful) {g : Gcm} (hg : g.Valid C) (iv : ℕ)
    (hiv : iv < 2 ^ 96) (data : Bytes) (hl : data.length ≤ 16 * 2 ^ 32) :
    g.crypt C iv data = .ok ((List.range data.length).map fun i =>
      data.getD i 0 ^^^ keyStream (C.enc g.masterKey) (longToBytes iv 12) i) := by
  unfold Gcm.crypt
  by_cases h0 : data.length > 0
  swap
  · have : data = [] := List.eq_nil_of_length_eq_zero (by omega)
    subst this
    rfl
  rw [if_pos h0]
  obtain ⟨k, hp, hk⟩ := pad16_prefix data
  have hpl : (pad16 data).length ≤ 16 * 2 ^ 32 := by
    have := pad16_length data
    rw [hp, List.length_append, List.length_replicate] at this ⊢
    omega
  unfold ctrCrypt
  simp only [aesNew, hg.key_ok, if_true, Bind.bind, Except.bind, if_neg (show ¬ (pad16 data).length > 16 * 2 ^ 32 by omega)]
  congr 1
  have hpre : (longToBytes iv 12).length = 12 :=
    longToBytes_length iv 12 (by norm_num) (lt_of_lt_of_eq hiv (by norm_num))
  have hE : ∀ n, (C.enc g.masterKey (ctrBlock (longToBytes iv 12) n)).length = 16 := by
    intro n
    apply hC.enc_length _ _ hg.key_ok
    unfold ctrBlock
    rw [List.length_append, hpre, natToBytesW_length]
  have hks : ((List.range (((pad16 data).length + 15) / 16)).flatMap fun i =>
      C.enc g.masterKey (ctrBlock (longToBytes iv 12) (2 + i))).length =
      16 * (((pad16 data).length + 15) / 16) := by
    rw [List.length_flatMap]
    simp [hE, Nat.mul_comm]
  have hlen16 := pad16_length data
  have hge : data.length ≤ (pad16 data).length := by rw [hp]; simp
  apply List.ext_getElem
  · simp only [List.length_take, xorBytes_length, List.length_map, List.length_range, hks]
    omega
  · intro i h1 h2
    simp only [List.length_map, List.length_range] at h2
    rw [List.getElem_take, List.getElem_map, List.getElem_range]
    simp only [xorBytes, List.getElem_zipWith]
    congr 1
    · simp only [hp]
      rw [List.getElem_append_left h2, List.getD_eq_getElem _ _ h2]
    · have hb : i < 16 * (List.range (((pad16 data).length + 15) / 16)).length := by
        rw [List.length_range]; omega
      have := flatMap_getD (fun i => C.enc g.masterKey (ctrBlock (longToBytes iv 12) (2 + i)))
        (List.range (((pad16 data).length + 15) / 16)) (fun x _ => hE _) i 0 hb
      rw [List.getD_eq_getElem _ _ (by rw [hks]; simpa using hb)] at this
      rw [this]
      unfold keyStream ctrBlock
      have hr : (List.range (((pad16 data).length + 15) / 16)).getD (i / 16) 0 = i / 16 := by
        rw [List.getD_eq_getElem _ _ (by rw [List.length_range] at hb ⊢; omega), List.getElem_range]
      rw [hr, show (2 : ℕ) ^ 32 = 256 ^ 4 by norm_num, natToBytesW_mod]

end Verif
