import Verif.Proofs.KeyWrap
/-
Properties C35–C37: AES key wrap (`/repo/src/jwkest/aes_key_wrap.py`).
-/

namespace Verif
open Spec

theorem fits {len j i : Nat} (hl : len < 2 ^ 61) (hj : j ≤ 5) (hi : i ≤ len / 8) :
    len / 8 * j + i < 2 ^ 64 := by
  have : len / 8 * j ≤ len / 8 * 5 := Nat.mul_le_mul_left _ hj
  omega

/-- The initial state of the wrap loop satisfies the invariant. -/
theorem wrap_init (p : Bytes) (iv : Nat) (hiv : iv < 2 ^ 64) :
    KWInv (p.length / 8) (iv, (List.range (p.length / 8)).map fun i => (p.drop (i * 8)).take 8) :=
  ⟨hiv, by simp, (range_blocks p _ (by omega)).2⟩

/-- The wrap loop ends, in a good state, for every plaintext below 2^61 bytes. -/
theorem wrap_runs {C : BlockCipher} (hC : C.Lawful) {kek p : Bytes} {iv : Nat}
    (hk : aesKeyOk kek) (hiv : iv < 2 ^ 64) (hl : p.length < 2 ^ 61) :
    ∃ st, (wrapOrder (p.length / 8)).foldlM (wrapStep C kek (p.length / 8))
      (iv, (List.range (p.length / 8)).map fun i => (p.drop (i * 8)).take 8) = .ok st ∧
      KWInv (p.length / 8) st := by
  refine foldlM_ok _ (KWInv _) (· ∈ wrapOrder (p.length / 8)) ?_ _ _ (fun _ h => h)
    (wrap_init p iv hiv)
  intro s a hs ha
  obtain ⟨h1, h2, h3⟩ := wrapOrder_mem ha
  exact wrapStep_ok hC hk hs ⟨h2, h3⟩ (fits hl h1 h3)

theorem aesNew_ok {kek : Bytes} (hk : aesKeyOk kek) : aesNew kek = .ok () := by
  simp [aesNew, hk]

/-- C35: wrapping succeeds, adds 8 bytes, and unwrapping restores the key.  (2^61 bytes is where
the 64-bit step counter would overflow.) -/
theorem C35_roundtrip (C : BlockCipher) (hC : C.Lawful) (kek k : Bytes) (iv : Nat)
    (hk : aesKeyOk kek) (hiv : iv < 2 ^ 64) (h8 : k.length % 8 = 0) (hl : k.length < 2 ^ 61) :
    ∃ w, aesWrapKey C kek k iv = .ok w ∧ w.length = k.length + 8 ∧
      aesUnwrapKey C kek w iv = .ok k := by
  obtain ⟨st, e, hinv⟩ := wrap_runs hC (p := k) hk hiv hl
  have hfl := blocks_flatten st.2 hinv.2.2
  have hlen : (natToBytesW 8 st.1 ++ st.2.flatten).length = k.length + 8 := by
    rw [List.length_append, natToBytesW_length, hfl.1, hinv.2.1]; omega
  refine ⟨natToBytesW 8 st.1 ++ st.2.flatten, ?_, hlen, ?_⟩
  · unfold aesWrapKey
    simp only [aesNew_ok hk, e, Bind.bind, Except.bind, packQ, hinv.1, if_true]
  · have hn : (natToBytesW 8 st.1 ++ st.2.flatten).length / 8 - 1 = k.length / 8 := by
      rw [hlen]; omega
    have hr : (List.range (k.length / 8)).map (fun i =>
        ((natToBytesW 8 st.1 ++ st.2.flatten).drop ((i + 1) * 8)).take 8) = st.2 := by
      conv => rhs; rw [← hfl.2, hinv.2.1]
      apply List.map_congr_left
      intro i _
      rw [show (i + 1) * 8 = (natToBytesW 8 st.1).length + i * 8 by
        rw [natToBytesW_length]; omega, List.drop_append,
        List.drop_eq_nil_of_le (by omega)]
      simp
    have hinvr := foldlM_inverse (wrapStep C kek (k.length / 8)) (unwrapStep C kek (k.length / 8))
      (KWInv (k.length / 8)) (· ∈ wrapOrder (k.length / 8)) (by
        intro s a s' hs ha hstep
        obtain ⟨h1, h2, h3⟩ := wrapOrder_mem ha
        obtain ⟨s2, e2, i2⟩ := wrapStep_ok hC hk hs ⟨h2, h3⟩ (fits hl h1 h3)
        rw [hstep] at e2
        simp only [Except.ok.injEq] at e2
        exact unwrapStep_wrapStep hC hk hs ⟨h2, h3⟩ hstep (by rw [e2]; exact i2.1))
      _ _ _ (fun _ h => h) (wrap_init k iv hiv) e
    unfold aesUnwrapKey aesUnwrapKeyAndIV
    simp only [hn, hr, unpackQ, List.take_left' (natToBytesW_length 8 st.1), natToBytesW_length,
      if_true, bytesToNat_natToBytesW, pow64, Nat.mod_eq_of_lt hinv.1, aesNew_ok hk,
      unwrapOrder_eq, Bind.bind, Except.bind]
    rw [hinvr.2]
    simp only [ne_eq, not_true_eq_false, if_false]
    rw [(range_blocks k _ (by omega)).1, List.take_of_length_le (by omega)]

/-- The hypotheses are satisfiable (16-byte key wrapped under a 16-byte key). -/
example : ∃ w, aesWrapKey toyCipher (List.replicate 16 7) (List.replicate 16 9) = .ok w ∧
    w.length = 24 ∧ aesUnwrapKey toyCipher (List.replicate 16 7) w = .ok (List.replicate 16 9) :=
  C35_roundtrip toyCipher toyCipher_lawful _ _ _ (by decide) (by decide) (by decide) (by decide)

/-- C35, second half: trailing bytes beyond a multiple of 8 are silently dropped. -/
theorem C35_truncates (C : BlockCipher) (kek k : Bytes) (iv : Nat) :
    aesWrapKey C kek k iv = aesWrapKey C kek (k.take (k.length / 8 * 8)) iv := by
  unfold aesWrapKey
  have h1 : (k.take (k.length / 8 * 8)).length / 8 = k.length / 8 := by
    rw [List.length_take]; omega
  have h2 : (List.range (k.length / 8)).map (fun i => (k.drop (i * 8)).take 8) =
      (List.range (k.length / 8)).map
        (fun i => ((k.take (k.length / 8 * 8)).drop (i * 8)).take 8) := by
    apply List.map_congr_left
    intro i hi
    have hi : i < k.length / 8 := by simpa using hi
    rw [List.drop_take, List.take_take]
    congr 1
    have : i * 8 + 8 ≤ k.length / 8 * 8 := by omega
    omega
  simp only [h1, h2]

/-- C36: whatever unwraps is a genuine wrap (of what it unwraps to), up to at most seven trailing
bytes that the code ignores. -/
theorem C36_genuine (C : BlockCipher) (hC : C.Lawful) (kek w k : Bytes) (iv : Nat)
    (h : aesUnwrapKey C kek w iv = .ok k) :
    aesWrapKey C kek k iv = .ok (w.take (w.length / 8 * 8)) ∧ 8 ≤ w.length ∧
      k.length = w.length / 8 * 8 - 8 := by
  unfold aesUnwrapKey aesUnwrapKeyAndIV at h
  simp only [Bind.bind, Except.bind, unpackQ] at h
  by_cases h8 : (w.take 8).length = 8
  case neg => simp only [h8, if_false] at h; exact absurd h (by simp)
  have hlen : 8 ≤ w.length := by rw [List.length_take] at h8; omega
  simp only [h8, if_true] at h
  by_cases hk : aesKeyOk kek
  case neg => simp [aesNew, hk] at h
  simp only [aesNew_ok hk, unwrapOrder_eq] at h
  split at h
  · simp at h
  rename_i st hst
  split at hst
  · simp at hst
  rename_i st' he
  simp only [Except.ok.injEq] at hst
  subst hst
  simp only at h
  split at h
  · simp at h
  rename_i hiv
  simp only [ne_eq, Decidable.not_not] at hiv
  simp only [Except.ok.injEq] at h
  have hinit : KWInv (w.length / 8 - 1) (bytesToNat (w.take 8),
      (List.range (w.length / 8 - 1)).map fun i => (w.drop ((i + 1) * 8)).take 8) := by
    refine ⟨?_, by simp, ?_⟩
    · have := bytesToNat_lt (w.take 8)
      rwa [h8, pow64] at this
    · intro x hx
      obtain ⟨i, hi, rfl⟩ := List.mem_map.mp hx
      have : i < w.length / 8 - 1 := by simpa using hi
      rw [List.length_take, List.length_drop]; omega
  obtain ⟨hinv, hfold⟩ := foldlM_inverse (unwrapStep C kek (w.length / 8 - 1))
    (wrapStep C kek (w.length / 8 - 1)) (KWInv (w.length / 8 - 1))
    (· ∈ wrapOrder (w.length / 8 - 1)) (by
      intro s a s' hs ha hstep
      obtain ⟨h1, h2, h3⟩ := wrapOrder_mem ha
      exact wrapStep_unwrapStep hC hk hs ⟨h2, h3⟩ hstep) _ _ _
    (fun a ha => List.mem_reverse.mp ha) hinit he
  rw [List.reverse_reverse] at hfold
  have hfl := blocks_flatten st'.2 hinv.2.2
  have hkl : k.length = (w.length / 8 - 1) * 8 := by rw [← h, hfl.1, hinv.2.1]
  refine ⟨?_, hlen, by omega⟩
  unfold aesWrapKey
  have hn : k.length / 8 = w.length / 8 - 1 := by omega
  have hblocks : (List.range (w.length / 8 - 1)).map (fun i => (k.drop (i * 8)).take 8) = st'.2 := by
    rw [← h, ← hinv.2.1]; exact hfl.2
  simp only [hn, hblocks, aesNew_ok hk, Bind.bind, Except.bind, ← hiv, hfold]
  have hq : packQ (bytesToNat (w.take 8)) = .ok (w.take 8) := by
    have := hinit.1
    simp only at this
    rw [packQ, if_pos this, natToBytesW_bytesToNat' h8]
  rw [hq]
  simp only [Except.ok.injEq]
  have : (List.range (w.length / 8 - 1)).map (fun i => (w.drop ((i + 1) * 8)).take 8) =
      (List.range (w.length / 8 - 1)).map (fun i => ((w.drop 8).drop (i * 8)).take 8) := by
    apply List.map_congr_left
    intro i _
    rw [List.drop_drop, show (i + 1) * 8 = 8 + i * 8 by omega]
  rw [this, (range_blocks (w.drop 8) _ (by rw [List.length_drop]; omega)).1]
  rw [show w.length / 8 * 8 = 8 + (w.length / 8 - 1) * 8 by omega, List.take_add]

/-- Satisfiable with trailing garbage: the wrap followed by 3 extra bytes still unwraps. -/
example : ∃ w k, w.length = 27 ∧ aesUnwrapKey toyCipher (List.replicate 16 7) w = .ok k := by
  refine ⟨((aesWrapKey toyCipher (List.replicate 16 7) (List.replicate 16 9)).toOption.getD []) ++
    [1, 2, 3], List.replicate 16 9, ?_, ?_⟩ <;> decide +kernel

/-- Two accepted wrapped keys with the same content differ only in ignored trailing bytes. -/
theorem C36_unique (C : BlockCipher) (hC : C.Lawful) (kek w w' k : Bytes) (iv : Nat)
    (h : aesUnwrapKey C kek w iv = .ok k) (h' : aesUnwrapKey C kek w' iv = .ok k)
    (h8 : w.length % 8 = 0) (h8' : w'.length % 8 = 0) : w = w' := by
  obtain ⟨e, _, _⟩ := C36_genuine C hC kek w k iv h
  obtain ⟨e', _, _⟩ := C36_genuine C hC kek w' k iv h'
  rw [e] at e'
  simp only [Except.ok.injEq] at e'
  rwa [List.take_of_length_le (by omega), List.take_of_length_le (by omega)] at e'

/-- Failure is reported by `ValueError` (integrity check, bad KEK size) or `struct.error`. -/
theorem C36_errors (C : BlockCipher) (hC : C.Lawful) (kek w : Bytes) (iv : Nat) (e : Exc)
    (h : aesUnwrapKey C kek w iv = .error e) (hl : w.length < 2 ^ 61) :
    (e = .valueError ∧ 8 ≤ w.length) ∨ (e = .structError ∧ w.length < 8) := by
  unfold aesUnwrapKey aesUnwrapKeyAndIV at h
  simp only [Bind.bind, Except.bind, unpackQ] at h
  by_cases h8 : (w.take 8).length = 8
  case neg =>
    simp only [h8, if_false, Except.error.injEq] at h
    rw [List.length_take] at h8
    exact .inr ⟨h.symm, by omega⟩
  have hlen : 8 ≤ w.length := by rw [List.length_take] at h8; omega
  simp only [h8, if_true] at h
  by_cases hk : aesKeyOk kek
  case neg =>
    simp only [aesNew, hk] at h
    simp only [Except.error.injEq, if_false, Bool.false_eq_true] at h
    exact .inl ⟨h.symm, hlen⟩
  simp only [aesNew_ok hk, unwrapOrder_eq] at h
  have hinit : KWInv (w.length / 8 - 1) (bytesToNat (w.take 8),
      (List.range (w.length / 8 - 1)).map fun i => (w.drop ((i + 1) * 8)).take 8) := by
    refine ⟨?_, by simp, ?_⟩
    · have := bytesToNat_lt (w.take 8)
      rwa [h8, pow64] at this
    · intro x hx
      obtain ⟨i, hi, rfl⟩ := List.mem_map.mp hx
      have : i < w.length / 8 - 1 := by simpa using hi
      rw [List.length_take, List.length_drop]; omega
  obtain ⟨st, hst, _⟩ := foldlM_ok (unwrapStep C kek (w.length / 8 - 1))
    (KWInv (w.length / 8 - 1)) (· ∈ wrapOrder (w.length / 8 - 1)) (by
      intro s a hs ha
      obtain ⟨h1, h2, h3⟩ := wrapOrder_mem ha
      have ht : (w.length / 8 - 1) * a.1 + a.2 < 2 ^ 64 := by
        have : (w.length / 8 - 1) * a.1 ≤ (w.length / 8 - 1) * 5 := Nat.mul_le_mul_left _ h1
        omega
      have hx := Nat.xor_lt_two_pow hs.1 ht
      have hblk := kw_getD hs (i := a.2 - 1) (by omega)
      have hin : (natToBytesW 8 (s.1 ^^^ ((w.length / 8 - 1) * a.1 + a.2)) ++
          s.2.getD (a.2 - 1) []).length = 16 := by
        rw [List.length_append, natToBytesW_length, hblk]
      have hout := hC.dec_length kek _ hk hin
      have htake : ((C.dec kek (natToBytesW 8 (s.1 ^^^ ((w.length / 8 - 1) * a.1 + a.2)) ++
          s.2.getD (a.2 - 1) [])).take 8).length = 8 := by rw [List.length_take, hout]; rfl
      have hlt2 := bytesToNat_lt ((C.dec kek (natToBytesW 8 (s.1 ^^^ ((w.length / 8 - 1) * a.1 +
          a.2)) ++ s.2.getD (a.2 - 1) [])).take 8)
      rw [htake, pow64] at hlt2
      refine ⟨_, ?_, kw_set hs (a.2 - 1) _ _ hlt2 (by rw [List.length_drop, hout] :
        ((C.dec kek (natToBytesW 8 (s.1 ^^^ ((w.length / 8 - 1) * a.1 + a.2)) ++
          s.2.getD (a.2 - 1) [])).drop 8).length = 8)⟩
      unfold unwrapStep
      simp only [packQ, hx, if_true, Bind.bind, Except.bind, unpackQ, htake])
    (wrapOrder (w.length / 8 - 1)).reverse _ (fun a ha => List.mem_reverse.mp ha) hinit
  rw [hst] at h
  simp only at h
  split at h
  · simp only [Except.error.injEq] at h
    exact .inl ⟨h.symm, hlen⟩
  · simp at h

/-! ### C37: agreement with the shift-register form of RFC 3394 -/

theorem blocks8_eq (b : Bytes) :
    blocks8 b = (List.range (b.length / 8)).map fun i => (b.drop (i * 8)).take 8 := by
  fun_induction blocks8 b with
  | case1 b h => rw [show b.length / 8 = 0 by omega]; rfl
  | case2 b h ih =>
    rw [ih, show b.length / 8 = (b.drop 8).length / 8 + 1 by rw [List.length_drop]; omega,
      List.range_succ_eq_map, List.map_cons, List.map_map]
    simp only [Nat.zero_mul, List.drop_zero]
    congr 1
    apply List.map_congr_left
    intro i _
    simp only [Function.comp, List.drop_drop]
    rw [show 8 + i * 8 = i.succ * 8 by omega]

/-- Inside one round the shift register holds the index-based registers rotated by `i`. -/
theorem round_eq {C : BlockCipher} (hC : C.Lawful) {kek : Bytes} (hk : aesKeyOk kek) {n : Nat}
    (j : Nat) (hn : n * j + n < 2 ^ 64) (i : Nat) (hi : i ≤ n) (a : Nat) (r : List Bytes)
    (h0 : KWInv n (a, r)) :
    ∃ a' r', ((List.range i).map fun i => (j, i + 1)).foldlM (wrapStep C kek n) (a, r) =
        .ok (a', r') ∧ KWInv n (a', r') ∧
      ((List.range i).map fun i => n * j + (i + 1)).foldl (kwStep C kek) (a, r) =
        (a', r'.drop i ++ r'.take i) := by
  induction i with
  | zero => exact ⟨a, r, rfl, h0, by simp⟩
  | succ i ih =>
    obtain ⟨a', r', e1, hinv, e2⟩ := ih (by omega)
    obtain ⟨st2, e3, hinv2⟩ := wrapStep_ok hC hk hinv (ji := (j, i + 1))
      ⟨by simp, by simpa using hi⟩ (by simp only; omega)
    have hir : i < r'.length := by have := hinv.2.1; simp only at this; omega
    have hblk := kw_getD hinv (i := i) (by omega)
    simp only at hblk
    have ha : a' < 2 ^ 64 := hinv.1
    have hin : (natToBytesW 8 a' ++ r'.getD i []).length = 16 := by
      rw [List.length_append, natToBytesW_length, hblk]
    have hout := hC.enc_length kek _ hk hin
    have htake : ((C.enc kek (natToBytesW 8 a' ++ r'.getD i [])).take 8).length = 8 := by
      rw [List.length_take, hout]; rfl
    have hst := e3
    unfold wrapStep at hst
    simp only [packQ, ha, if_true, Bind.bind, Except.bind, unpackQ, Nat.add_sub_cancel, htake,
      Except.ok.injEq] at hst
    refine ⟨st2.1, st2.2, ?_, hinv2, ?_⟩
    · rw [List.range_succ, List.map_append, List.foldlM_append, e1]
      simp only [Bind.bind, Except.bind, List.map_cons, List.map_nil, List.foldlM_cons,
        List.foldlM_nil, e3, pure, Except.pure]
    · rw [List.range_succ, List.map_append, List.foldl_append, e2]
      simp only [List.map_cons, List.map_nil, List.foldl_cons, List.foldl_nil]
      have hd : r'.drop i = r'.getD i [] :: r'.drop (i + 1) := by
        rw [List.drop_eq_getElem_cons hir]
        simp [List.getD_eq_getElem?_getD, List.getElem?_eq_getElem hir]
      rw [hd, List.cons_append, kwStep, ← hst]
      simp only [Prod.mk.injEq, true_and]
      rw [List.append_assoc, List.drop_set_of_lt (by omega)]
      congr 1
      rw [List.take_succ_eq_append_getElem (by simpa using hir), List.take_set_of_le (Nat.le_refl i)]
      simp

/-- C37: the output of `aes_wrap_key` is exactly the RFC 3394 wrap of the complete blocks. -/
theorem C37_rfc3394 (C : BlockCipher) (hC : C.Lawful) (kek p : Bytes) (iv : Nat)
    (hk : aesKeyOk kek) (hiv : iv < 2 ^ 64) (hl : p.length < 2 ^ 61) :
    aesWrapKey C kek p iv = .ok (rfc3394Wrap C kek iv (blocks8 p)) := by
  have hb := blocks8_eq p
  have hbl : (blocks8 p).length = p.length / 8 := by rw [hb]; simp
  have hinit := wrap_init p iv hiv
  rw [← hb] at hinit
  -- one complete round: the rotation returns to the start
  have round : ∀ j, j ≤ 5 → ∀ st : Nat × List Bytes, KWInv (p.length / 8) st →
      ∃ st', ((List.range (p.length / 8)).map fun i => (j, i + 1)).foldlM
          (wrapStep C kek (p.length / 8)) st = .ok st' ∧ KWInv (p.length / 8) st' ∧
        ((List.range (p.length / 8)).map fun i => p.length / 8 * j + (i + 1)).foldl
          (kwStep C kek) st = st' := by
    intro j hj st hst
    have := fits hl hj (Nat.le_refl (p.length / 8))
    obtain ⟨a', r', e1, hinv, e2⟩ := round_eq hC hk j this _ (Nat.le_refl _) st.1 st.2 hst
    refine ⟨(a', r'), e1, hinv, ?_⟩
    rw [e2]
    have hl' : r'.length = p.length / 8 := hinv.2.1
    rw [List.drop_of_length_le (by omega), List.take_of_length_le (by omega)]; rfl
  -- all six rounds
  have rounds : ∀ js : List Nat, (∀ j ∈ js, j ≤ 5) → ∀ st : Nat × List Bytes,
      KWInv (p.length / 8) st →
      ∃ st', (js.flatMap fun j => (List.range (p.length / 8)).map fun i => (j, i + 1)).foldlM
          (wrapStep C kek (p.length / 8)) st = .ok st' ∧ KWInv (p.length / 8) st' ∧
        (js.flatMap fun j => (List.range (p.length / 8)).map fun i =>
          p.length / 8 * j + (i + 1)).foldl (kwStep C kek) st = st' := by
    intro js
    induction js with
    | nil => intro _ st hst; exact ⟨st, rfl, hst, rfl⟩
    | cons j js ih =>
      intro hjs st hst
      obtain ⟨s1, e1, i1, f1⟩ := round j (hjs j (by simp)) st hst
      obtain ⟨s2, e2, i2, f2⟩ := ih (fun x hx => hjs x (by simp [hx])) s1 i1
      refine ⟨s2, ?_, i2, ?_⟩
      · rw [List.flatMap_cons, List.foldlM_append, e1]; exact e2
      · rw [List.flatMap_cons, List.foldl_append, f1, f2]
  obtain ⟨st', e, hinv, f⟩ := rounds [0, 1, 2, 3, 4, 5] (by decide) _ hinit
  have hts : ([0, 1, 2, 3, 4, 5].flatMap fun j => (List.range (p.length / 8)).map fun i =>
      p.length / 8 * j + (i + 1)) = (List.range (6 * (p.length / 8))).map (· + 1) := by
    generalize p.length / 8 = n
    have h6 : ∀ k, ((List.range k).flatMap fun j => (List.range n).map fun i => n * j + (i + 1)) =
        (List.range (k * n)).map (· + 1) := by
      intro k
      induction k with
      | zero => simp
      | succ k ih =>
        rw [List.range_succ, List.flatMap_append, ih, Nat.succ_mul, List.range_add,
          List.map_append, List.map_map]
        simp only [List.flatMap_cons, List.flatMap_nil, List.append_nil]
        congr 1
        apply List.map_congr_left
        intro i _
        simp only [Function.comp, Nat.mul_comm]
        omega
    exact h6 6
  unfold aesWrapKey rfc3394Wrap
  rw [hbl, ← hts]
  simp only [← hb, aesNew_ok hk, Bind.bind, Except.bind]
  rw [show wrapOrder (p.length / 8) = [0, 1, 2, 3, 4, 5].flatMap fun j =>
    (List.range (p.length / 8)).map fun i => (j, i + 1) from rfl, e]
  simp only [packQ, hinv.1, if_true, f]

example : aesKeyOk (List.replicate 16 7) ∧ (List.replicate 20 9 : Bytes).length < 2 ^ 61 := by
  decide

/-- C37: without an explicit initial value, both directions use the one of RFC 3394, section 2.2.3.1. -/
theorem C37_default (C : BlockCipher) (hC : C.Lawful) (kek p : Bytes) (hk : aesKeyOk kek)
    (hl : p.length < 2 ^ 61) :
    aesWrapKey C kek p = .ok (rfc3394Wrap C kek 0xA6A6A6A6A6A6A6A6 (blocks8 p)) ∧
    aesUnwrapKey C kek p = aesUnwrapKey C kek p 0xA6A6A6A6A6A6A6A6 :=
  ⟨C37_rfc3394 C hC kek p _ hk (by decide) hl, rfl⟩

/-- `aes_wrap_key_withpad` is unusable on Python 3. -/
theorem C37_withpad_raises (C : BlockCipher) (kek p : Bytes) :
    aesWrapKeyWithpad C kek p = .error .typeError := rfl

end Verif
