import Verif.Proofs.Ints
import Verif.Proofs.KeyWrap
/-
Lemmas on PyCryptodome's `long_to_bytes` with a block size.
-/

namespace Verif

theorem natToBytes_length_le (w : Nat) : ∀ n, n < 256 ^ w → (natToBytes n).length ≤ w := by
  induction w with
  | zero => intro n h; have : n = 0 := by simpa using h
            subst this; rw [natToBytes]; simp
  | succ w ih =>
    intro n h
    rw [natToBytes]
    split
    · simp
    · have := ih (n / 256) (by rw [Nat.pow_succ] at h; omega)
      simp only [List.length_append, List.length_cons, List.length_nil]
      omega

theorem bytesToNat_replicate_zero (k : Nat) (s : Bytes) :
    bytesToNat (List.replicate k 0 ++ s) = bytesToNat s := by
  induction k with
  | zero => rfl
  | succ k ih => rw [List.replicate_succ, List.cons_append]; unfold bytesToNat at *; simpa using ih

theorem bytesToNat_longToBytes (x w : Nat) : bytesToNat (longToBytes x w) = x := by
  have hs : bytesToNat (if x = 0 then [0] else natToBytes x) = x := by
    split
    · rename_i h; subst h; rfl
    · exact bytesToNat_natToBytes x
  unfold longToBytes
  simp only
  generalize (if x = 0 then [0] else natToBytes x) = s at hs
  split
  · rw [bytesToNat_replicate_zero, hs]
  · exact hs

theorem longToBytes_length (x w : Nat) (hw : 0 < w) (h : x < 256 ^ w) :
    (longToBytes x w).length = w := by
  have hl : 0 < (if x = 0 then [0] else natToBytes x).length ∧
      (if x = 0 then [0] else natToBytes x).length ≤ w := by
    split
    · simp; omega
    · rename_i h0
      refine ⟨?_, natToBytes_length_le w x h⟩
      rw [natToBytes, dif_neg h0]; simp
  unfold longToBytes
  simp only
  generalize (if x = 0 then [0] else natToBytes x) = s at hl
  split
  · rename_i hc
    rw [List.length_append, List.length_replicate]
    rcases Nat.lt_or_eq_of_le hl.2 with h1 | h1
    · rw [Nat.mod_eq_of_lt h1]; omega
    · rw [h1, Nat.mod_self] at hc; exact absurd rfl hc.2
  · rename_i hc
    apply Decidable.by_contra
    intro hne
    apply hc
    refine ⟨hw, ?_⟩
    rw [Nat.mod_eq_of_lt (by omega)]
    omega

theorem longToBytes_eq (x w : Nat) (hw : 0 < w) (h : x < 256 ^ w) :
    longToBytes x w = natToBytesW w x := by
  apply bytesToNat_inj
  · rw [longToBytes_length x w hw h, natToBytesW_length]
  · rw [bytesToNat_longToBytes, bytesToNat_natToBytesW, Nat.mod_eq_of_lt h]

end Verif
