import Verif.Props.CbcHmac
/-
Properties C41–C42: Concat KDF and ECDH-ES key derivation input
(`/repo/src/jwkest/extra.py:140-183`).
-/

namespace Verif
open Spec

theorem kdfStream_succ (h : Bytes → Bytes) (s i : Bytes) (m : Nat) :
    kdfStream h s i (m + 1) = kdfStream h s i m ++ h (natToBytesW 4 (m + 1) ++ s ++ i) := by
  simp [kdfStream, List.range_succ]

theorem kdfStream_length {H : Hashes} (hH : H.Lawful) (s i : Bytes) (m : Nat) :
    (kdfStream (H.hash .sha256) s i m).length = 32 * m := by
  induction m with
  | zero => rfl
  | succ m ih => rw [kdfStream_succ, List.length_append, ih, hH.hash_length]; simp [HashAlg.size]; omega

theorem kdfStream_prefix (h : Bytes → Bytes) (s i : Bytes) (m k : Nat) :
    kdfStream h s i m <+: kdfStream h s i (m + k) := by
  induction k with
  | zero => exact List.prefix_rfl
  | succ k ih => rw [← Nat.add_assoc, kdfStream_succ]; exact ih.trans (List.prefix_append _ _)

theorem kdfStream_take {H : Hashes} (hH : H.Lawful) (s i : Bytes) (n m m' : Nat)
    (h : n ≤ 32 * m) (hm : m ≤ m') :
    (kdfStream (H.hash .sha256) s i m').take n = (kdfStream (H.hash .sha256) s i m).take n := by
  have hp := kdfStream_prefix (H.hash .sha256) s i m (m' - m)
  rw [show m + (m' - m) = m' by omega] at hp
  obtain ⟨t, ht⟩ := hp
  rw [← ht, List.take_append_of_le_length (by rw [kdfStream_length hH]; omega)]

/-- The loop, started after `m` blocks, with enough fuel. -/
theorem concatLoop_eq {H : Hashes} (hH : H.Lawful) (s i : Bytes) (n : Nat)
    (hn : n ≤ 32 * (2 ^ 32 - 1)) : ∀ (fuel m : Nat), n + 32 ≤ 32 * (m + fuel) →
    (m = 0 ∨ 32 * (m - 1) < n) →
    concatLoop H s i n fuel m (kdfStream (H.hash .sha256) s i m) =
      some (.ok ((kdfStream (H.hash .sha256) s i ((n + 31) / 32)).take n)) := by
  intro fuel
  induction fuel with
  | zero => intro m h1 h2; omega
  | succ f ih =>
    intro m h1 h2
    unfold concatLoop
    rw [kdfStream_length hH]
    split
    · rename_i hlt
      have : packI (m + 1) = .ok (natToBytesW 4 (m + 1)) := by rw [packI, if_pos (by omega)]
      rw [this]
      simp only
      rw [← kdfStream_succ]
      exact ih (m + 1) (by omega) (.inr (by simpa using hlt))
    · rename_i hge
      congr 2
      rcases h2 with rfl | h2
      · have : n = 0 := by omega
        subst this; rfl
      · have : m = (n + 31) / 32 := by
          cases m with
          | zero => omega
          | succ k => simp only [Nat.add_sub_cancel] at h2; omega
        rw [← this]

/-- C41: for every request the 32-bit counter can serve, `concat_sha256` returns exactly
`⌈dk_len/8⌉` bytes, the prefix of the SHA-256 blocks over counters 1, 2, 3, …, and its loop stops
(any larger fuel gives the same result). -/
theorem C41_concat (H : Hashes) (hH : H.Lawful) (secret info : Bytes) (dkLen : Nat)
    (hn : dkBytesOf dkLen ≤ 32 * (2 ^ 32 - 1)) :
    ∃ out, concatSha256 H secret dkLen info = .ok out ∧
      8 * out.length < dkLen + 8 ∧ dkLen ≤ 8 * out.length ∧
      (∀ m, dkLen ≤ 256 * m → out = (kdfStream (H.hash .sha256) secret info m).take out.length) ∧
      ∀ fuel, dkBytesOf dkLen < fuel →
        concatLoop H secret info (dkBytesOf dkLen) fuel 0 [] = some (.ok out) := by
  have key := fun fuel hf => concatLoop_eq hH secret info (dkBytesOf dkLen) hn fuel 0 hf (.inl rfl)
  have hl : ((kdfStream (H.hash .sha256) secret info ((dkBytesOf dkLen + 31) / 32)).take
      (dkBytesOf dkLen)).length = dkBytesOf dkLen := by
    rw [List.length_take, kdfStream_length hH]; omega
  refine ⟨(kdfStream (H.hash .sha256) secret info ((dkBytesOf dkLen + 31) / 32)).take
    (dkBytesOf dkLen), ?_, ?_, ?_, ?_, ?_⟩
  · unfold concatSha256
    have := key (dkBytesOf dkLen + 1) (by omega)
    simp only [kdfStream, List.range_zero, List.flatMap_nil] at this
    rw [this]; rfl
  · rw [hl]; unfold dkBytesOf; omega
  · rw [hl]; unfold dkBytesOf; omega
  · intro m hm
    rw [hl]
    have h1 : dkBytesOf dkLen ≤ 32 * m := by unfold dkBytesOf; omega
    exact (kdfStream_take hH secret info _ _ _ (by omega) (by omega)).symm
  · intro fuel hf
    have := key fuel (by omega)
    simpa only [kdfStream, List.range_zero, List.flatMap_nil] using this

example : ∃ out, concatSha256 toyHashes [1, 2] 384 [3] = .ok out ∧ out.length = 48 := by
  obtain ⟨out, h1, h2, h3, _⟩ := C41_concat toyHashes toyHashes_lawful [1, 2] [3] 384 (by decide)
  exact ⟨out, h1, by omega⟩

/-- C41: with the same secret and info, a longer key extends a shorter one. -/
theorem C41_extends (H : Hashes) (hH : H.Lawful) (secret info o1 o2 : Bytes) (l1 l2 : Nat)
    (h1 : concatSha256 H secret l1 info = .ok o1) (h2 : concatSha256 H secret l2 info = .ok o2)
    (hle : l1 ≤ l2) (hn : dkBytesOf l2 ≤ 32 * (2 ^ 32 - 1)) : o1 <+: o2 := by
  have hn1 : dkBytesOf l1 ≤ 32 * (2 ^ 32 - 1) := by unfold dkBytesOf at *; omega
  obtain ⟨p1, e1, a1, b1, c1, _⟩ := C41_concat H hH secret info l1 hn1
  obtain ⟨p2, e2, a2, b2, c2, _⟩ := C41_concat H hH secret info l2 hn
  rw [h1] at e1; rw [h2] at e2
  simp only [Except.ok.injEq] at e1 e2
  subst e1; subst e2
  rw [c1 l2 (by omega), c2 l2 (by omega)]
  exact List.take_prefix_take_left (by omega)

/-! ### C42 -/

/-- `otherInfo` as specified, when the length fields fit. -/
theorem ecdhOtherInfo_ok (apu apv alg : Bytes) (dkLen : Nat) (oi : Bytes)
    (h : ecdhOtherInfo apu apv alg dkLen = .ok oi) :
    apu.length < 2 ^ 32 ∧ apv.length < 2 ^ 32 ∧ dkLen < 2 ^ 32 ∧
    oi = alg ++ natToBytesW 4 apu.length ++ apu ++ natToBytesW 4 apv.length ++ apv ++
      natToBytesW 4 dkLen := by
  unfold ecdhOtherInfo packI at h
  by_cases h1 : apu.length < 2 ^ 32
  case neg => simp [if_neg h1, Bind.bind, Except.bind] at h
  by_cases h2 : apv.length < 2 ^ 32
  case neg => simp [if_pos h1, if_neg h2, Bind.bind, Except.bind] at h
  by_cases h3 : dkLen < 2 ^ 32
  case neg => simp [if_pos h1, if_pos h2, if_neg h3, Bind.bind, Except.bind] at h
  simp only [if_pos h1, if_pos h2, if_pos h3, Bind.bind, Except.bind, Except.ok.injEq] at h
  exact ⟨h1, h2, h3, h.symm⟩

/-- No algorithm name used by the library is a proper prefix of another. -/
theorem kdfNames_prefix_free (a b s t : Bytes) (ha : a ∈ kdfNames) (hb : b ∈ kdfNames)
    (h : a ++ s = b ++ t) : a = b ∧ s = t := by
  have key : ∀ a ∈ kdfNames, ∀ b ∈ kdfNames, a.length ≤ b.length → b.take a.length = a → a = b := by
    decide
  have : a = b := by
    rcases Nat.le_total a.length b.length with hl | hl
    · apply key a ha b hb hl
      have := congrArg (List.take a.length) h
      rw [List.take_left' rfl, List.take_append_of_le_length hl] at this
      exact this.symm
    · refine (key b hb a ha hl ?_).symm
      have := congrArg (List.take b.length) h
      rwa [List.take_left' rfl, List.take_append_of_le_length hl] at this
  subst this
  exact ⟨rfl, List.append_cancel_left h⟩

theorem pow32 : (256 : Nat) ^ 4 = 2 ^ 32 := by decide

/-- C42: for the library's algorithm names, the KDF input separates algorithm, both party values
and key length — also together with a shared secret of fixed width and the block counter. -/
theorem C42_separates (z z' apu apu' apv apv' alg alg' oi oi' : Bytes) (dk dk' c c' : Nat)
    (ha : alg ∈ kdfNames) (ha' : alg' ∈ kdfNames) (hz : z.length = z'.length)
    (hc : c < 2 ^ 32) (hc' : c' < 2 ^ 32)
    (h : ecdhOtherInfo apu apv alg dk = .ok oi) (h' : ecdhOtherInfo apu' apv' alg' dk' = .ok oi')
    (heq : natToBytesW 4 c ++ z ++ oi = natToBytesW 4 c' ++ z' ++ oi') :
    c = c' ∧ z = z' ∧ alg = alg' ∧ apu = apu' ∧ apv = apv' ∧ dk = dk' := by
  obtain ⟨u1, v1, d1, rfl⟩ := ecdhOtherInfo_ok _ _ _ _ _ h
  obtain ⟨u2, v2, d2, rfl⟩ := ecdhOtherInfo_ok _ _ _ _ _ h'
  simp only [List.append_assoc] at heq
  obtain ⟨e1, heq⟩ := List.append_inj heq (by rw [natToBytesW_length, natToBytesW_length])
  obtain ⟨e2, heq⟩ := List.append_inj heq hz
  obtain ⟨e3, heq⟩ := kdfNames_prefix_free _ _ _ _ ha ha' heq
  obtain ⟨e4, heq⟩ := List.append_inj heq (by rw [natToBytesW_length, natToBytesW_length])
  have e4 := natToBytesW_inj (by rw [pow32]; exact u1) (by rw [pow32]; exact u2) e4
  obtain ⟨e5, heq⟩ := List.append_inj heq e4
  obtain ⟨e6, heq⟩ := List.append_inj heq (by rw [natToBytesW_length, natToBytesW_length])
  have e6 := natToBytesW_inj (by rw [pow32]; exact v1) (by rw [pow32]; exact v2) e6
  obtain ⟨e7, e8⟩ := List.append_inj heq e6
  exact ⟨natToBytesW_inj (by rw [pow32]; exact hc) (by rw [pow32]; exact hc') e1, e2, e3, e5, e7,
    natToBytesW_inj (by rw [pow32]; exact d1) (by rw [pow32]; exact d2) e8⟩

example : ascii "A128GCM" ∈ kdfNames ∧ (ecdhOtherInfo (ascii "Alice") (ascii "Bob")
    (ascii "A128GCM") 128).Returns := ⟨by decide, _, rfl⟩

/-- Without the restriction to the library's names the encoding is ambiguous, because the
algorithm name carries no length prefix (unlike RFC 7518 section 4.6.2). -/
theorem C42_ambiguous_names : ∃ alg alg' apu apu' apv apv' : Bytes, alg ≠ alg' ∧
    ecdhOtherInfo apu apv alg 128 = ecdhOtherInfo apu' apv' alg' 128 :=
  ⟨[65], [65, 0, 0, 0, 4], [0, 0, 0, 0], [], [], [], by decide⟩

end Verif
