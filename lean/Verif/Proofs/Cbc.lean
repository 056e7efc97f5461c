import Verif.Model.Extra
import Verif.Proofs.KeyWrap
/-
Lemmas on CBC chaining.
-/

namespace Verif

theorem xorBytes_length (a b : Bytes) : (xorBytes a b).length = min a.length b.length := by
  simp [xorBytes]

theorem blocks16_spec (b : Bytes) (h : b.length % 16 = 0) :
    (blocks16 b).flatten = b ∧ ∀ x ∈ blocks16 b, x.length = 16 := by
  fun_induction blocks16 b with
  | case1 b hb =>
    have : b = [] := List.eq_nil_of_length_eq_zero (by omega)
    simp [this]
  | case2 b hb ih =>
    obtain ⟨h1, h2⟩ := ih (by rw [List.length_drop]; omega)
    refine ⟨by rw [List.flatten_cons, h1, List.take_append_drop], ?_⟩
    intro x hx
    rcases List.mem_cons.mp hx with rfl | hx
    · rw [List.length_take]; omega
    · exact h2 x hx

theorem blocks16_flatten (r : List Bytes) (h : ∀ x ∈ r, x.length = 16) :
    blocks16 r.flatten = r ∧ r.flatten.length = 16 * r.length := by
  induction r with
  | nil => rw [blocks16]; simp
  | cons x r ih =>
    obtain ⟨h1, h2⟩ := ih (fun y hy => h y (by simp [hy]))
    have hx := h x (by simp)
    refine ⟨?_, by rw [List.flatten_cons, List.length_append, h2, hx, List.length_cons]; omega⟩
    rw [blocks16, if_neg (by rw [List.flatten_cons, List.length_append]; omega), List.flatten_cons,
      List.take_left' hx, List.drop_left' hx, h1]

theorem cbcEncBlocks_spec {C : BlockCipher} (hC : C.Lawful) {key : Bytes} (hk : aesKeyOk key) :
    ∀ (ps : List Bytes) (iv : Bytes), iv.length = 16 → (∀ x ∈ ps, x.length = 16) →
      cbcDecBlocks C key iv (cbcEncBlocks C key iv ps) = ps ∧
      (∀ x ∈ cbcEncBlocks C key iv ps, x.length = 16) ∧
      (cbcEncBlocks C key iv ps).length = ps.length := by
  intro ps
  induction ps with
  | nil => intros; simp [cbcEncBlocks, cbcDecBlocks]
  | cons p ps ih =>
    intro iv hiv hps
    have hp := hps p (by simp)
    have hx : (xorBytes p iv).length = 16 := by rw [xorBytes_length]; omega
    have hc := hC.enc_length key _ hk hx
    obtain ⟨h1, h2, h3⟩ := ih (C.enc key (xorBytes p iv)) hc (fun x hx => hps x (by simp [hx]))
    refine ⟨?_, ?_, ?_⟩
    · simp only [cbcEncBlocks, cbcDecBlocks, h1, hC.dec_enc key _ hk hx]
      unfold xorBytes
      rw [zipWith_xor_twice p iv (by omega)]
    · intro x hx'
      simp only [cbcEncBlocks, List.mem_cons] at hx'
      rcases hx' with rfl | hx'
      · exact hc
      · exact h2 x hx'
    · simp [cbcEncBlocks, h3]

theorem cbc_roundtrip {C : BlockCipher} (hC : C.Lawful) {key iv data : Bytes} (hk : aesKeyOk key)
    (hiv : iv.length = 16) (hd : data.length % 16 = 0) :
    ∃ ct, cbcEncrypt C key iv data = .ok ct ∧ ct.length = data.length ∧
      cbcDecrypt C key iv ct = .ok data := by
  obtain ⟨b1, b2⟩ := blocks16_spec data hd
  obtain ⟨c1, c2, c3⟩ := cbcEncBlocks_spec hC hk (blocks16 data) iv hiv b2
  obtain ⟨f1, f2⟩ := blocks16_flatten _ c2
  have hbl : 16 * (blocks16 data).length = data.length := by
    have := (blocks16_flatten _ b2).2
    rw [b1] at this; omega
  refine ⟨(cbcEncBlocks C key iv (blocks16 data)).flatten, ?_, by rw [f2, c3, hbl], ?_⟩
  · unfold cbcEncrypt
    simp [aesNew, hk, hiv, hd, Bind.bind, Except.bind]
  · unfold cbcDecrypt
    have : (cbcEncBlocks C key iv (blocks16 data)).flatten.length % 16 = 0 := by rw [f2]; omega
    simp only [aesNew, hk, hiv, this, Bind.bind, Except.bind, if_true, ne_eq, not_true_eq_false,
      if_false]
    rw [f1, c1, b1]

end Verif
