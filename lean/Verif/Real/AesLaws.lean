import Verif.Real.Aes
/-
AES is a family of permutations of 16-byte blocks: the steps of FIPS 197 are inverted by its inverse
steps.
-/

namespace Verif.Real

theorem xtime_xor (a b : UInt8) : xtime (a ^^^ b) = xtime a ^^^ xtime b := by
  have h : ∀ a : UInt8, xtime a = (a <<< 1) ^^^ (if a.toBitVec.getLsbD 7 then 0x1b else 0) :=
    forall_uint8 (by decide +kernel)
  rw [h, h a, h b]
  have hs : (a ^^^ b) <<< 1 = (a <<< 1) ^^^ (b <<< 1) := by
    apply UInt8.toBitVec_inj.mp
    simp [BitVec.shiftLeft_xor_distrib]
  rw [hs, UInt8.toBitVec_xor, BitVec.getLsbD_xor]
  cases a.toBitVec.getLsbD 7 <;> cases b.toBitVec.getLsbD 7 <;> simp
  · ac_rfl
  · ac_rfl
  · rw [show a <<< 1 ^^^ (27 : UInt8) ^^^ (b <<< 1 ^^^ (27 : UInt8)) = (a <<< 1 ^^^ b <<< 1) ^^^ ((27 : UInt8) ^^^ 27) by ac_rfl]
    simp

theorem gmul_xor (a b : UInt8) (n : Nat) (c : UInt8) :
    gmul (a ^^^ b) n c = gmul a n c ^^^ gmul b n c := by
  induction n generalizing a b c with
  | zero => simp [gmul]
  | succ n ih =>
    simp only [gmul, xtime_xor, ih]
    split
    · ac_rfl
    · simp

theorem regroup (a1 b1 c1 d1 a2 b2 c2 d2 a3 b3 c3 d3 a4 b4 c4 d4 : UInt8) :
    (a1 ^^^ b1 ^^^ c1 ^^^ d1) ^^^ (a2 ^^^ b2 ^^^ c2 ^^^ d2) ^^^ (a3 ^^^ b3 ^^^ c3 ^^^ d3) ^^^
      (a4 ^^^ b4 ^^^ c4 ^^^ d4) =
    (a1 ^^^ a2 ^^^ a3 ^^^ a4) ^^^ (b1 ^^^ b2 ^^^ b3 ^^^ b4) ^^^ (c1 ^^^ c2 ^^^ c3 ^^^ c4) ^^^
      (d1 ^^^ d2 ^^^ d3 ^^^ d4) := by ac_rfl

theorem invMix_mix_00 : ∀ x : UInt8, gmul (gmul x 4 2) 4 14 ^^^ gmul x 4 11 ^^^ gmul x 4 13 ^^^ gmul (gmul x 4 3) 4 9 = x :=
  forall_uint8 (by decide +kernel)

theorem invMix_mix_01 : ∀ x : UInt8, gmul (gmul x 4 3) 4 14 ^^^ gmul (gmul x 4 2) 4 11 ^^^ gmul x 4 13 ^^^ gmul x 4 9 = 0 :=
  forall_uint8 (by decide +kernel)

theorem invMix_mix_02 : ∀ x : UInt8, gmul x 4 14 ^^^ gmul (gmul x 4 3) 4 11 ^^^ gmul (gmul x 4 2) 4 13 ^^^ gmul x 4 9 = 0 :=
  forall_uint8 (by decide +kernel)

theorem invMix_mix_03 : ∀ x : UInt8, gmul x 4 14 ^^^ gmul x 4 11 ^^^ gmul (gmul x 4 3) 4 13 ^^^ gmul (gmul x 4 2) 4 9 = 0 :=
  forall_uint8 (by decide +kernel)

theorem invMix_mix_10 : ∀ x : UInt8, gmul (gmul x 4 2) 4 9 ^^^ gmul x 4 14 ^^^ gmul x 4 11 ^^^ gmul (gmul x 4 3) 4 13 = 0 :=
  forall_uint8 (by decide +kernel)

theorem invMix_mix_11 : ∀ x : UInt8, gmul (gmul x 4 3) 4 9 ^^^ gmul (gmul x 4 2) 4 14 ^^^ gmul x 4 11 ^^^ gmul x 4 13 = x :=
  forall_uint8 (by decide +kernel)

theorem invMix_mix_12 : ∀ x : UInt8, gmul x 4 9 ^^^ gmul (gmul x 4 3) 4 14 ^^^ gmul (gmul x 4 2) 4 11 ^^^ gmul x 4 13 = 0 :=
  forall_uint8 (by decide +kernel)

theorem invMix_mix_13 : ∀ x : UInt8, gmul x 4 9 ^^^ gmul x 4 14 ^^^ gmul (gmul x 4 3) 4 11 ^^^ gmul (gmul x 4 2) 4 13 = 0 :=
  forall_uint8 (by decide +kernel)

theorem invMix_mix_20 : ∀ x : UInt8, gmul (gmul x 4 2) 4 13 ^^^ gmul x 4 9 ^^^ gmul x 4 14 ^^^ gmul (gmul x 4 3) 4 11 = 0 :=
  forall_uint8 (by decide +kernel)

theorem invMix_mix_21 : ∀ x : UInt8, gmul (gmul x 4 3) 4 13 ^^^ gmul (gmul x 4 2) 4 9 ^^^ gmul x 4 14 ^^^ gmul x 4 11 = 0 :=
  forall_uint8 (by decide +kernel)

theorem invMix_mix_22 : ∀ x : UInt8, gmul x 4 13 ^^^ gmul (gmul x 4 3) 4 9 ^^^ gmul (gmul x 4 2) 4 14 ^^^ gmul x 4 11 = x :=
  forall_uint8 (by decide +kernel)

theorem invMix_mix_23 : ∀ x : UInt8, gmul x 4 13 ^^^ gmul x 4 9 ^^^ gmul (gmul x 4 3) 4 14 ^^^ gmul (gmul x 4 2) 4 11 = 0 :=
  forall_uint8 (by decide +kernel)

theorem invMix_mix_30 : ∀ x : UInt8, gmul (gmul x 4 2) 4 11 ^^^ gmul x 4 13 ^^^ gmul x 4 9 ^^^ gmul (gmul x 4 3) 4 14 = 0 :=
  forall_uint8 (by decide +kernel)

theorem invMix_mix_31 : ∀ x : UInt8, gmul (gmul x 4 3) 4 11 ^^^ gmul (gmul x 4 2) 4 13 ^^^ gmul x 4 9 ^^^ gmul x 4 14 = 0 :=
  forall_uint8 (by decide +kernel)

theorem invMix_mix_32 : ∀ x : UInt8, gmul x 4 11 ^^^ gmul (gmul x 4 3) 4 13 ^^^ gmul (gmul x 4 2) 4 9 ^^^ gmul x 4 14 = 0 :=
  forall_uint8 (by decide +kernel)

theorem invMix_mix_33 : ∀ x : UInt8, gmul x 4 11 ^^^ gmul x 4 13 ^^^ gmul (gmul x 4 3) 4 9 ^^^ gmul (gmul x 4 2) 4 14 = x :=
  forall_uint8 (by decide +kernel)

theorem invMix_mix : ∀ s : Bytes, s.length % 4 = 0 → invMixColumns (mixColumns s) = s
  | [], _ => rfl
  | [_], h | [_, _], h | [_, _, _], h => by simp at h
  | a :: b :: c :: d :: s, h => by
    have ih := invMix_mix s (by simp only [List.length_cons] at h; omega)
    simp only [mixColumns, invMixColumns, ih, gmul_xor, List.cons.injEq, and_true]
    refine ⟨?_, ?_, ?_, ?_⟩
    all_goals rw [regroup]
    · rw [invMix_mix_00 a, invMix_mix_01 b, invMix_mix_02 c, invMix_mix_03 d]; simp
    · rw [invMix_mix_10 a, invMix_mix_11 b, invMix_mix_12 c, invMix_mix_13 d]; simp
    · rw [invMix_mix_20 a, invMix_mix_21 b, invMix_mix_22 c, invMix_mix_23 d]; simp
    · rw [invMix_mix_30 a, invMix_mix_31 b, invMix_mix_32 c, invMix_mix_33 d]; simp

theorem mix_invMix_00 : ∀ x : UInt8, gmul (gmul x 4 14) 4 2 ^^^ gmul (gmul x 4 9) 4 3 ^^^ gmul x 4 13 ^^^ gmul x 4 11 = x :=
  forall_uint8 (by decide +kernel)

theorem mix_invMix_01 : ∀ x : UInt8, gmul (gmul x 4 11) 4 2 ^^^ gmul (gmul x 4 14) 4 3 ^^^ gmul x 4 9 ^^^ gmul x 4 13 = 0 :=
  forall_uint8 (by decide +kernel)

theorem mix_invMix_02 : ∀ x : UInt8, gmul (gmul x 4 13) 4 2 ^^^ gmul (gmul x 4 11) 4 3 ^^^ gmul x 4 14 ^^^ gmul x 4 9 = 0 :=
  forall_uint8 (by decide +kernel)

theorem mix_invMix_03 : ∀ x : UInt8, gmul (gmul x 4 9) 4 2 ^^^ gmul (gmul x 4 13) 4 3 ^^^ gmul x 4 11 ^^^ gmul x 4 14 = 0 :=
  forall_uint8 (by decide +kernel)

theorem mix_invMix_10 : ∀ x : UInt8, gmul x 4 14 ^^^ gmul (gmul x 4 9) 4 2 ^^^ gmul (gmul x 4 13) 4 3 ^^^ gmul x 4 11 = 0 :=
  forall_uint8 (by decide +kernel)

theorem mix_invMix_11 : ∀ x : UInt8, gmul x 4 11 ^^^ gmul (gmul x 4 14) 4 2 ^^^ gmul (gmul x 4 9) 4 3 ^^^ gmul x 4 13 = x :=
  forall_uint8 (by decide +kernel)

theorem mix_invMix_12 : ∀ x : UInt8, gmul x 4 13 ^^^ gmul (gmul x 4 11) 4 2 ^^^ gmul (gmul x 4 14) 4 3 ^^^ gmul x 4 9 = 0 :=
  forall_uint8 (by decide +kernel)

theorem mix_invMix_13 : ∀ x : UInt8, gmul x 4 9 ^^^ gmul (gmul x 4 13) 4 2 ^^^ gmul (gmul x 4 11) 4 3 ^^^ gmul x 4 14 = 0 :=
  forall_uint8 (by decide +kernel)

theorem mix_invMix_20 : ∀ x : UInt8, gmul x 4 14 ^^^ gmul x 4 9 ^^^ gmul (gmul x 4 13) 4 2 ^^^ gmul (gmul x 4 11) 4 3 = 0 :=
  forall_uint8 (by decide +kernel)

theorem mix_invMix_21 : ∀ x : UInt8, gmul x 4 11 ^^^ gmul x 4 14 ^^^ gmul (gmul x 4 9) 4 2 ^^^ gmul (gmul x 4 13) 4 3 = 0 :=
  forall_uint8 (by decide +kernel)

theorem mix_invMix_22 : ∀ x : UInt8, gmul x 4 13 ^^^ gmul x 4 11 ^^^ gmul (gmul x 4 14) 4 2 ^^^ gmul (gmul x 4 9) 4 3 = x :=
  forall_uint8 (by decide +kernel)

theorem mix_invMix_23 : ∀ x : UInt8, gmul x 4 9 ^^^ gmul x 4 13 ^^^ gmul (gmul x 4 11) 4 2 ^^^ gmul (gmul x 4 14) 4 3 = 0 :=
  forall_uint8 (by decide +kernel)

theorem mix_invMix_30 : ∀ x : UInt8, gmul (gmul x 4 14) 4 3 ^^^ gmul x 4 9 ^^^ gmul x 4 13 ^^^ gmul (gmul x 4 11) 4 2 = 0 :=
  forall_uint8 (by decide +kernel)

theorem mix_invMix_31 : ∀ x : UInt8, gmul (gmul x 4 11) 4 3 ^^^ gmul x 4 14 ^^^ gmul x 4 9 ^^^ gmul (gmul x 4 13) 4 2 = 0 :=
  forall_uint8 (by decide +kernel)

theorem mix_invMix_32 : ∀ x : UInt8, gmul (gmul x 4 13) 4 3 ^^^ gmul x 4 11 ^^^ gmul x 4 14 ^^^ gmul (gmul x 4 9) 4 2 = 0 :=
  forall_uint8 (by decide +kernel)

theorem mix_invMix_33 : ∀ x : UInt8, gmul (gmul x 4 9) 4 3 ^^^ gmul x 4 13 ^^^ gmul x 4 11 ^^^ gmul (gmul x 4 14) 4 2 = x :=
  forall_uint8 (by decide +kernel)

theorem mix_invMix : ∀ s : Bytes, s.length % 4 = 0 → mixColumns (invMixColumns s) = s
  | [], _ => rfl
  | [_], h | [_, _], h | [_, _, _], h => by simp at h
  | a :: b :: c :: d :: s, h => by
    have ih := mix_invMix s (by simp only [List.length_cons] at h; omega)
    simp only [mixColumns, invMixColumns, ih, gmul_xor, List.cons.injEq, and_true]
    refine ⟨?_, ?_, ?_, ?_⟩
    all_goals rw [regroup]
    · rw [mix_invMix_00 a, mix_invMix_01 b, mix_invMix_02 c, mix_invMix_03 d]; simp
    · rw [mix_invMix_10 a, mix_invMix_11 b, mix_invMix_12 c, mix_invMix_13 d]; simp
    · rw [mix_invMix_20 a, mix_invMix_21 b, mix_invMix_22 c, mix_invMix_23 d]; simp
    · rw [mix_invMix_30 a, mix_invMix_31 b, mix_invMix_32 c, mix_invMix_33 d]; simp

theorem mixColumns_length : ∀ s : Bytes, s.length % 4 = 0 → (mixColumns s).length = s.length
  | [], _ => rfl
  | [_], h | [_, _], h | [_, _, _], h => by simp at h
  | a :: b :: c :: d :: s, h => by
    have ih := mixColumns_length s (by simp only [List.length_cons] at h; omega)
    simp [mixColumns, ih]

theorem invMixColumns_length : ∀ s : Bytes, s.length % 4 = 0 → (invMixColumns s).length = s.length
  | [], _ => rfl
  | [_], h | [_, _], h | [_, _, _], h => by simp at h
  | a :: b :: c :: d :: s, h => by
    have ih := invMixColumns_length s (by simp only [List.length_cons] at h; omega)
    simp [invMixColumns, ih]

theorem sub_inverse (s : Bytes) : invSubBytes (subBytes s) = s ∧ subBytes (invSubBytes s) = s := by
  simp [subBytes, invSubBytes, Function.comp_def, invSbox_sbox, sbox_invSbox]

theorem shift_inverse (s : Bytes) (h : s.length = 16) :
    invShiftRows (shiftRows s) = s ∧ shiftRows (invShiftRows s) = s := by
  match s, h with
  | [a0, a1, a2, a3, a4, a5, a6, a7, a8, a9, a10, a11, a12, a13, a14, a15], _ => exact ⟨rfl, rfl⟩

theorem xorBytes_length16 {a b : Bytes} (ha : a.length = 16) (hb : b.length = 16) :
    (xorBytes a b).length = 16 := by simp [xorBytes, ha, hb]

theorem xorBytes_cancel {a b : Bytes} (ha : a.length = 16) (hb : b.length = 16) :
    xorBytes (xorBytes a b) b = a := zipWith_xor_twice a b (by omega)

theorem shiftRows_length (s : Bytes) : (shiftRows s).length = 16 := rfl
theorem invShiftRows_length (s : Bytes) : (invShiftRows s).length = 16 := rfl

theorem subBytes_length (s : Bytes) : (subBytes s).length = s.length := by simp [subBytes]
theorem invSubBytes_length (s : Bytes) : (invSubBytes s).length = s.length := by simp [invSubBytes]

theorem encRounds_length {ks : List Bytes} : ∀ {s : Bytes}, s.length = 16 → (∀ k ∈ ks, k.length = 16) →
    (encRounds s ks).length = 16 := by
  induction ks with
  | nil => exact fun h _ => h
  | cons k ks ih =>
    intro s hs hk
    have hk0 := hk k (List.mem_cons_self ..)
    have hks : ∀ k ∈ ks, k.length = 16 := fun x hx => hk x (List.mem_cons_of_mem _ hx)
    cases ks with
    | nil => exact xorBytes_length16 (shiftRows_length _) hk0
    | cons k' ks =>
      rw [encRounds]
      · exact ih (xorBytes_length16 (by rw [mixColumns_length _ (by rw [shiftRows_length]), shiftRows_length])
          hk0) hks
      · simp

theorem decRounds_length {ks : List Bytes} : ∀ {s : Bytes}, s.length = 16 → (∀ k ∈ ks, k.length = 16) →
    (decRounds s ks).length = 16 := by
  induction ks with
  | nil => exact fun h _ => h
  | cons k ks ih =>
    intro s hs hk
    cases ks with
    | nil => rw [decRounds, invSubBytes_length]; rfl
    | cons k' ks => rw [decRounds, invSubBytes_length]; rfl; simp

theorem dec_encRounds {ks : List Bytes} : ∀ {s : Bytes}, s.length = 16 → (∀ k ∈ ks, k.length = 16) →
    decRounds (encRounds s ks) ks = s := by
  induction ks with
  | nil => exact fun _ _ => rfl
  | cons k ks ih =>
    intro s hs hk
    have hk0 := hk k (List.mem_cons_self ..)
    have hks : ∀ k ∈ ks, k.length = 16 := fun x hx => hk x (List.mem_cons_of_mem _ hx)
    have hsub : (subBytes s).length = 16 := by rw [subBytes_length, hs]
    cases ks with
    | nil =>
      simp only [encRounds, decRounds]
      rw [xorBytes_cancel (shiftRows_length _) hk0, (shift_inverse _ hsub).1, (sub_inverse s).1]
    | cons k' ks =>
      have hm : (mixColumns (shiftRows (subBytes s))).length = 16 := by
        rw [mixColumns_length _ (by rw [shiftRows_length]), shiftRows_length]
      rw [encRounds, decRounds, ih (xorBytes_length16 hm hk0) hks, xorBytes_cancel hm hk0,
        invMix_mix _ (by rw [shiftRows_length]), (shift_inverse _ hsub).1, (sub_inverse s).1]
      · simp
      · simp

theorem enc_decRounds {ks : List Bytes} : ∀ {s : Bytes}, s.length = 16 → (∀ k ∈ ks, k.length = 16) →
    encRounds (decRounds s ks) ks = s := by
  induction ks with
  | nil => exact fun _ _ => rfl
  | cons k ks ih =>
    intro s hs hk
    have hk0 := hk k (List.mem_cons_self ..)
    have hks : ∀ k ∈ ks, k.length = 16 := fun x hx => hk x (List.mem_cons_of_mem _ hx)
    cases ks with
    | nil =>
      simp only [encRounds, decRounds]
      rw [(sub_inverse _).2, (shift_inverse _ (xorBytes_length16 hs hk0)).2, xorBytes_cancel hs hk0]
    | cons k' ks =>
      have hd := decRounds_length hs hks
      have hx := xorBytes_length16 hd hk0
      have hm : (invMixColumns (xorBytes (decRounds s (k' :: ks)) k)).length = 16 := by
        rw [invMixColumns_length _ (by rw [hx]), hx]
      rw [encRounds, decRounds, (sub_inverse _).2, (shift_inverse _ hm).2,
        mix_invMix _ (by rw [hx]), xorBytes_cancel hd hk0, ih hs hks]
      · simp
      · simp

theorem nextWord_length {nk : Nat} {w : List Bytes} (hw : ∀ x ∈ w, x.length = 4) (h0 : w ≠ [])
    (hnk : 0 < nk) : (nextWord nk w).length = 4 := by
  have hl : (w.getLastD []).length = 4 := by
    rw [List.getLastD_eq_getLast?, List.getLast?_eq_some_getLast h0]
    exact hw _ (List.getLast_mem h0)
  have hi : w.length - nk < w.length := by
    have := List.length_pos_iff.mpr h0
    omega
  have hg : (w.getD (w.length - nk) []).length = 4 := by
    rw [List.getD_eq_getElem?_getD, List.getElem?_eq_getElem hi]
    exact hw _ (List.getElem_mem hi)
  unfold nextWord
  simp only
  split
  · simp only [xorBytes, List.length_zipWith, List.length_map, List.length_append, List.length_drop,
      List.length_take, hl, hg, List.length_cons, List.length_nil]
    omega
  · split
    · simp only [xorBytes, List.length_zipWith, List.length_map, hl, hg]
      omega
    · simp only [xorBytes, List.length_zipWith, hl, hg]
      omega

theorem expand_words {nk n : Nat} (hnk : 0 < nk) : ∀ {w : List Bytes}, (∀ x ∈ w, x.length = 4) → w ≠ [] →
    (∀ x ∈ expand nk w n, x.length = 4) ∧ (expand nk w n).length = w.length + n := by
  induction n with
  | zero => exact fun h _ => ⟨h, rfl⟩
  | succ n ih =>
    intro w hw h0
    obtain ⟨h1, h2⟩ := ih (w := w ++ [nextWord nk w]) (by
      intro x hx
      rcases List.mem_append.mp hx with hx | hx
      · exact hw x hx
      · rw [List.mem_singleton.mp hx]
        exact nextWord_length hw h0 hnk) (by simp)
    refine ⟨h1, ?_⟩
    rw [expand, h2]
    simp only [List.length_append, List.length_cons, List.length_nil]
    omega

theorem roundKeysOf_length : ∀ (w : List Bytes), (∀ x ∈ w, x.length = 4) →
    ∀ k ∈ roundKeysOf w, k.length = 16
  | [], _ | [_], _ | [_, _], _ | [_, _, _], _ => by simp [roundKeysOf]
  | a :: b :: c :: d :: w, h => by
    intro k hk
    rw [roundKeysOf] at hk
    rcases List.mem_cons.mp hk with rfl | hk
    · simp [h a (by simp), h b (by simp), h c (by simp), h d (by simp)]
    · exact roundKeysOf_length w (fun x hx => h x (by simp [hx])) k hk

theorem words_length : ∀ (s : Bytes), ∀ x ∈ words s, x.length = 4
  | [] | [_] | [_, _] | [_, _, _] => by simp [words]
  | a :: b :: c :: d :: s => by
    intro x hx
    rw [words] at hx
    rcases List.mem_cons.mp hx with rfl | hx
    · rfl
    · exact words_length s x hx

theorem roundKeys_length {key : Bytes} (h : aesKeyOk key = true) : ∀ k ∈ roundKeys key, k.length = 16 := by
  have h16 := aesKeyOk_length h
  have hne : words key ≠ [] := by
    match key, h16 with
    | a :: b :: c :: d :: s, _ => simp [words]
  exact roundKeysOf_length _ (expand_words (by omega) (words_length key) hne).1

/-- AES satisfies the laws assumed of the block cipher. -/
theorem aes_lawful : aes.Lawful where
  enc_length key b hk hb := by
    have hks := roundKeys_length hk
    simp only [aes]
    cases h : roundKeys key with
    | nil => exact hb
    | cons k ks =>
      rw [h] at hks
      exact encRounds_length (xorBytes_length16 hb (hks k (List.mem_cons_self ..)))
        fun x hx => hks x (List.mem_cons_of_mem _ hx)
  dec_length key b hk hb := by
    have hks := roundKeys_length hk
    simp only [aes]
    cases h : roundKeys key with
    | nil => exact hb
    | cons k ks =>
      rw [h] at hks
      exact xorBytes_length16 (decRounds_length hb fun x hx => hks x (List.mem_cons_of_mem _ hx))
        (hks k (List.mem_cons_self ..))
  dec_enc key b hk hb := by
    have hks := roundKeys_length hk
    simp only [aes]
    cases h : roundKeys key with
    | nil => rfl
    | cons k ks =>
      rw [h] at hks
      have h0 := hks k (List.mem_cons_self ..)
      simp only
      rw [dec_encRounds (xorBytes_length16 hb h0) fun x hx => hks x (List.mem_cons_of_mem _ hx),
        xorBytes_cancel hb h0]
  enc_dec key b hk hb := by
    have hks := roundKeys_length hk
    simp only [aes]
    cases h : roundKeys key with
    | nil => rfl
    | cons k ks =>
      rw [h] at hks
      have h0 := hks k (List.mem_cons_self ..)
      have hr : ∀ x ∈ ks, x.length = 16 := fun x hx => hks x (List.mem_cons_of_mem _ hx)
      simp only
      rw [xorBytes_cancel (decRounds_length hb hr) h0, enc_decRounds hb hr]

/-- FIPS 197, appendix C.1. -/
example : aes.enc [0, 1, 2, 3, 4, 5, 6, 7, 8, 9, 10, 11, 12, 13, 14, 15]
    [0x00, 0x11, 0x22, 0x33, 0x44, 0x55, 0x66, 0x77, 0x88, 0x99, 0xaa, 0xbb, 0xcc, 0xdd, 0xee, 0xff] =
    [0x69, 0xc4, 0xe0, 0xd8, 0x6a, 0x7b, 0x04, 0x30, 0xd8, 0xcd, 0xb7, 0x80, 0x70, 0xb4, 0xc5, 0x5a] := by
  decide +kernel

/-- FIPS 197, appendix C.2. -/
example : aes.enc ((List.range 24).map UInt8.ofNat)
    [0x00, 0x11, 0x22, 0x33, 0x44, 0x55, 0x66, 0x77, 0x88, 0x99, 0xaa, 0xbb, 0xcc, 0xdd, 0xee, 0xff] =
    [0xdd, 0xa9, 0x7c, 0xa4, 0x86, 0x4c, 0xdf, 0xe0, 0x6e, 0xaf, 0x70, 0xa0, 0xec, 0x0d, 0x71, 0x91] := by
  decide +kernel

/-- FIPS 197, appendix C.3. -/
example : aes.enc ((List.range 32).map UInt8.ofNat)
    [0x00, 0x11, 0x22, 0x33, 0x44, 0x55, 0x66, 0x77, 0x88, 0x99, 0xaa, 0xbb, 0xcc, 0xdd, 0xee, 0xff] =
    [0x8e, 0xa2, 0xb7, 0xca, 0x51, 0x67, 0x45, 0xbf, 0xea, 0xfc, 0x49, 0x90, 0x4b, 0x49, 0x60, 0x89] := by
  decide +kernel

end Verif.Real
