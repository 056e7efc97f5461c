import Verif.Props.Gcm
import Mathlib.FieldTheory.Finite.Extension
import Mathlib.Algebra.Polynomial.Roots
/-
Property C74: the GCM polynomial is irreducible (so the arithmetic is that of a field), and for any
two different messages only few authentication keys make their GHASH values differ by a given
amount.
-/

namespace Verif
open Polynomial Spec

attribute [local irreducible] gcmPoly blockPoly

/-- Repeated squaring with the library's multiplication. -/
def gfSquares : ℕ → ℕ → ℕ
  | 0, x => x
  | n + 1, x => gfSquares n (gfVal x x)

theorem gfSquares_spec : ∀ (n x : ℕ), x < 2 ^ 128 → gfSquares n x < 2 ^ 128 ∧
    gfφ (blockPoly (gfSquares n x)) = gfφ (blockPoly x) ^ 2 ^ n := by
  intro n
  induction n with
  | zero => intro x h; exact ⟨h, by simp [gfSquares]⟩
  | succ n ih =>
    intro x h
    obtain ⟨_, h2, h3⟩ := gfMul_val x x h h
    obtain ⟨k1, k2⟩ := ih _ h2
    refine ⟨k1, ?_⟩
    show gfφ (blockPoly (gfSquares n (gfVal x x))) = _
    rw [k2, h3, ← pow_two, ← pow_mul, pow_succ 2 n, mul_comm]

theorem blockPoly_x : blockPoly (2 ^ 126) = X := by
  rw [blockPoly_two_pow _ (by norm_num)]; norm_num

theorem blockPoly_one : blockPoly (2 ^ 127) = 1 := by
  rw [blockPoly_two_pow _ (by norm_num)]; norm_num

theorem squares_128 : gfSquares 128 (2 ^ 126) = 2 ^ 126 := by decide +kernel

/-- The inverse of `x^(2^64) + x`. -/
def gcmCert : ℕ := 0x180da934bf53158251c13dbb149f5279

theorem squares_64 : gfVal (gfSquares 64 (2 ^ 126) ^^^ 2 ^ 126) gcmCert = 2 ^ 127 := by
  decide +kernel

theorem gfφ_dvd {p q : (ZMod 2)[X]} : gfφ p = gfφ q ↔ gcmPoly ∣ p - q := by
  unfold gfφ
  rw [AdjoinRoot.mk_eq_mk]

theorem dvd_of_squares (n : ℕ) (hn : gfSquares n (2 ^ 126) = 2 ^ 126) :
    gcmPoly ∣ X ^ 2 ^ n - X := by
  obtain ⟨_, h⟩ := gfSquares_spec n (2 ^ 126) (by norm_num)
  rw [hn, blockPoly_x, ← map_pow] at h
  exact gfφ_dvd.mp h.symm

theorem coprime_of_squares (n u : ℕ) (hu : u < 2 ^ 128)
    (hn : gfVal (gfSquares n (2 ^ 126) ^^^ 2 ^ 126) u = 2 ^ 127) :
    IsCoprime gcmPoly (X ^ 2 ^ n - X) := by
  obtain ⟨h1, h2⟩ := gfSquares_spec n (2 ^ 126) (by norm_num)
  obtain ⟨_, _, h3⟩ := gfMul_val (gfSquares n (2 ^ 126) ^^^ 2 ^ 126) u
    (Nat.xor_lt_two_pow h1 (by norm_num)) hu
  rw [hn, blockPoly_one, blockPoly_xor, map_add, h2, blockPoly_x] at h3
  have h4 : gfφ 1 = gfφ ((X ^ 2 ^ n - X) * blockPoly u) := by
    rw [h3, map_mul, map_sub, map_pow, sub_eq_add_neg, ← map_neg, CharTwo.neg_eq]
  obtain ⟨c, hc⟩ := gfφ_dvd.mp h4
  exact ⟨c, blockPoly u, by linear_combination -hc⟩

theorem irreducible_of (n m : ℕ) (h1 : gcmPoly ∣ X ^ 2 ^ n - X)
    (h2 : IsCoprime gcmPoly (X ^ 2 ^ m - X)) (h : ∀ d, d ∣ n → ¬ d ∣ m → d = 128) :
    Irreducible gcmPoly := by
  obtain ⟨f, hf, hd⟩ := WfDvdMonoid.exists_irreducible_factor
    (fun h => by
      have := natDegree_eq_zero_of_isUnit h
      rw [gcmPoly_degree] at this; omega) gcmPoly_monic.ne_zero
  have h3 : f.natDegree = 128 := by
    apply h
    · rw [hf.natDegree_dvd_iff_dvd_X_pow_card_pow_sub_X, Nat.card_zmod]
      exact hd.trans h1
    · rw [hf.natDegree_dvd_iff_dvd_X_pow_card_pow_sub_X, Nat.card_zmod]
      intro h
      exact hf.not_isUnit (h2.isUnit_of_dvd' hd h)
  obtain ⟨c, hc⟩ := hd
  have hc0 : c ≠ 0 := by rintro rfl; exact gcmPoly_monic.ne_zero (by rw [hc, mul_zero])
  have hdeg := congrArg natDegree hc
  rw [natDegree_mul hf.ne_zero hc0, gcmPoly_degree, h3] at hdeg
  have hu : IsUnit c := by
    rw [isUnit_iff_degree_eq_zero, degree_eq_natDegree hc0]
    have : c.natDegree = 0 := by omega
    rw [this]; rfl
  rw [hc]
  exact (irreducible_mul_isUnit hu).mpr hf

/-- The field polynomial is irreducible. -/
theorem C74_irreducible : Irreducible gcmPoly := by
  refine irreducible_of 128 64 (dvd_of_squares 128 squares_128)
    (coprime_of_squares 64 gcmCert (by decide +kernel) squares_64) ?_
  intro d h1 h2
  have h4 : d ≤ 128 := Nat.le_of_dvd (by norm_num) h1
  revert h1 h2
  interval_cases d <;> decide

noncomputable instance gcmIrreducible : Fact (Irreducible gcmPoly) := ⟨C74_irreducible⟩

/-- GHASH as a polynomial in the authentication key. -/
noncomputable def ghashP (bs : List ℕ) : (AdjoinRoot gcmPoly)[X] :=
  bs.foldl (fun y b => (y + C (gfφ (blockPoly b))) * X) 0

theorem ghashP_append (bs : List ℕ) (b : ℕ) :
    ghashP (bs ++ [b]) = (ghashP bs + C (gfφ (blockPoly b))) * X := by
  simp [ghashP]

theorem ghashP_eval (bs : List ℕ) (H : (ZMod 2)[X]) :
    (ghashP bs).eval (gfφ H) = gfφ (ghashPoly H bs) := by
  induction bs using List.reverseRecOn with
  | nil => simp [ghashP, ghashPoly]
  | append_singleton bs b ih =>
    have : ghashPoly H (bs ++ [b]) = ((ghashPoly H bs + blockPoly b) * H) %ₘ gcmPoly := by
      simp [ghashPoly]
    rw [ghashP_append, eval_mul, eval_add, ih, eval_C, eval_X, this, ← map_add, ← map_mul]
    refine gfφ_dvd.mpr ?_
    rw [modByMonic_eq_sub_mul_div, sub_sub_cancel]
    exact dvd_mul_right _ _

theorem ghashP_degree (bs : List ℕ) : (ghashP bs).natDegree ≤ bs.length := by
  induction bs using List.reverseRecOn with
  | nil => simp [ghashP]
  | append_singleton bs b ih =>
    rw [ghashP_append, List.length_append]
    refine natDegree_mul_le.trans ?_
    have := natDegree_add_C (p := ghashP bs) (a := gfφ (blockPoly b))
    rw [this, natDegree_X]
    exact Nat.add_le_add_right ih 1

theorem ghashP_coeff_zero (bs : List ℕ) : (ghashP bs).coeff 0 = 0 := by
  induction bs using List.reverseRecOn with
  | nil => simp [ghashP]
  | append_singleton bs b ih => rw [ghashP_append]; simp

theorem gfφ_inj {a b : ℕ} (ha : a < 2 ^ 128) (hb : b < 2 ^ 128)
    (h : gfφ (blockPoly a) = gfφ (blockPoly b)) : a = b := by
  apply blockPoly_inj ha hb
  have := gfφ_dvd.mp h
  have hd : (blockPoly a - blockPoly b).degree < gcmPoly.degree :=
    lt_of_le_of_lt (degree_sub_le _ _) (max_lt (blockPoly_degree a) (blockPoly_degree b))
  exact sub_eq_zero.mp (eq_zero_of_dvd_of_degree_lt this hd)

theorem ghashP_last {bs bs' : List ℕ} {b b' : ℕ} (hb : b < 2 ^ 128) (hb' : b' < 2 ^ 128)
    (h : ghashP (bs ++ [b]) = ghashP (bs' ++ [b'])) : b = b' ∧ ghashP bs = ghashP bs' := by
  rw [ghashP_append, ghashP_append] at h
  have h1 := mul_right_cancel₀ X_ne_zero h
  have h2 := congrArg (fun p => p.coeff 0) h1
  simp only [coeff_add, coeff_C_zero, ghashP_coeff_zero, zero_add] at h2
  have h3 := gfφ_inj hb hb' h2
  subst h3
  exact ⟨rfl, add_right_cancel h1⟩

theorem ghashP_inj (bs bs' : List ℕ) (hl : bs.length = bs'.length) (hb : ∀ b ∈ bs, b < 2 ^ 128)
    (hb' : ∀ b ∈ bs', b < 2 ^ 128) (h : ghashP bs = ghashP bs') : bs = bs' := by
  induction bs using List.reverseRecOn generalizing bs' with
  | nil => exact (List.eq_nil_of_length_eq_zero hl.symm).symm
  | append_singleton bs b ih =>
    induction bs' using List.reverseRecOn with
    | nil => simp at hl
    | append_singleton bs' b' _ =>
      obtain ⟨h1, h2⟩ := ghashP_last (hb b (by simp)) (hb' b' (by simp)) h
      rw [h1, ih bs' (by simpa using hl) (fun x hx => hb x (by simp [hx]))
        (fun x hx => hb' x (by simp [hx])) h2]

theorem paddedBlocks_lt (a : Bytes) : ∀ b ∈ paddedBlocks a, b < 2 ^ 128 := by
  induction hn : a.length using Nat.strong_induction_on generalizing a with
  | _ n ih =>
    subst hn
    rw [paddedBlocks]
    split
    · simp
    · intro b hb
      rcases List.mem_cons.mp hb with rfl | hb
      · have := bytesToNat_lt (a.take 16 ++ List.replicate (16 - a.length) 0)
        have hl : (a.take 16 ++ List.replicate (16 - a.length) (0 : UInt8)).length = 16 := by
          simp; omega
        rw [hl] at this
        exact lt_of_lt_of_eq this (by norm_num)
      · exact ih (a.drop 16).length (by simp; omega) _ rfl b hb

/-- For two different (additional data, ciphertext) pairs and any wanted difference of their GHASH
values, at most as many of the 2^128 authentication keys give this difference as there are
blocks in the longer one. -/
theorem C74_few_keys (aad ct aad' ct' : Bytes) (hne : (aad, ct) ≠ (aad', ct'))
    (ha : aad.length < 2 ^ 61) (hc : ct.length < 2 ^ 61)
    (ha' : aad'.length < 2 ^ 61) (hc' : ct'.length < 2 ^ 61) (delta : (ZMod 2)[X]) :
    Set.encard {h : ℕ | h < 2 ^ 128 ∧ ghashPoly (blockPoly h) (gcmBlocks aad ct) =
        ghashPoly (blockPoly h) (gcmBlocks aad' ct') + delta} ≤
      max (gcmBlocks aad ct).length (gcmBlocks aad' ct').length := by
  classical
  set P : (AdjoinRoot gcmPoly)[X] :=
    ghashP (gcmBlocks aad ct) - ghashP (gcmBlocks aad' ct') - C (gfφ delta) with hP
  have hP0 : P ≠ 0 := by
    intro h0
    have h1 := congrArg (fun p => p.coeff 0) h0
    simp only [hP, coeff_sub, coeff_C_zero, ghashP_coeff_zero, coeff_zero, zero_sub,
      sub_zero, neg_eq_zero] at h1
    rw [hP, h1, map_zero, sub_zero, sub_eq_zero] at h0
    have hlast : ∀ (a c : Bytes), a.length < 2 ^ 61 → c.length < 2 ^ 61 →
        8 * a.length * 2 ^ 64 + 8 * c.length < 2 ^ 128 := by
      intro a c h1 h2; omega
    have h2 := h0
    unfold gcmBlocks at h2
    obtain ⟨h3, h4⟩ := ghashP_last (hlast aad ct ha hc) (hlast aad' ct' ha' hc') h2
    have hla : aad.length = aad'.length := by omega
    have hlc : ct.length = ct'.length := by omega
    have h5 := ghashP_inj _ _ (by simp [paddedBlocks_length, hla, hlc])
      (fun b hb => by
        rcases List.mem_append.mp hb with h | h
        exacts [paddedBlocks_lt _ b h, paddedBlocks_lt _ b h])
      (fun b hb => by
        rcases List.mem_append.mp hb with h | h
        exacts [paddedBlocks_lt _ b h, paddedBlocks_lt _ b h]) h4
    obtain ⟨e1, e2⟩ := C46_blocks_injective aad ct aad' ct' hc hc'
      (by unfold gcmBlocks; rw [h5, h3])
    exact hne (by rw [e1, e2])
  have hdeg : P.natDegree ≤ max (gcmBlocks aad ct).length (gcmBlocks aad' ct').length := by
    rw [hP, natDegree_sub_C]
    exact (natDegree_sub_le _ _).trans (max_le_max (ghashP_degree _) (ghashP_degree _))
  have hmaps : Set.MapsTo (fun h : ℕ => gfφ (blockPoly h))
      {h : ℕ | h < 2 ^ 128 ∧ ghashPoly (blockPoly h) (gcmBlocks aad ct) =
        ghashPoly (blockPoly h) (gcmBlocks aad' ct') + delta} (P.roots.toFinset : Set _) := by
    rintro h ⟨_, he⟩
    rw [Finset.mem_coe, Multiset.mem_toFinset, mem_roots hP0, IsRoot.def, hP, eval_sub, eval_sub,
      eval_C, ghashP_eval, ghashP_eval, he, map_add]
    ring
  have hinj : Set.InjOn (fun h : ℕ => gfφ (blockPoly h))
      {h : ℕ | h < 2 ^ 128 ∧ ghashPoly (blockPoly h) (gcmBlocks aad ct) =
        ghashPoly (blockPoly h) (gcmBlocks aad' ct') + delta} := by
    rintro a ⟨h1, _⟩ b ⟨h2, _⟩ h
    exact gfφ_inj h1 h2 h
  refine (Set.encard_le_encard_of_injOn hmaps hinj).trans ?_
  rw [Set.encard_coe_eq_coe_finsetCard]
  exact_mod_cast (Multiset.toFinset_card_le _).trans ((card_roots' P).trans hdeg)

/-- The field: every non-zero value has an inverse under the library's multiplication. -/
theorem C74_inverse (x : ℕ) (hx : x < 2 ^ 128) (h0 : x ≠ 0) :
    ∃ y < 2 ^ 128, gfMul x y = .ok (2 ^ 127) := by
  have hinj : Function.Injective (fun y : Fin (2 ^ 128) =>
      (⟨gfVal x y, (gfMul_val x y hx y.2).2.1⟩ : Fin (2 ^ 128))) := by
    intro a b h
    have h1 : gfVal x a = gfVal x b := congrArg Fin.val h
    have h2 := (gfMul_val x a hx a.2).2.2
    rw [h1, (gfMul_val x b hx b.2).2.2] at h2
    have h3 : gfφ (blockPoly x) ≠ 0 := by
      intro hz
      apply h0
      apply gfφ_inj hx (by norm_num)
      rw [hz, blockPoly_zero, map_zero]
    exact Fin.ext (gfφ_inj b.2 a.2 (mul_left_cancel₀ h3 h2)).symm
  obtain ⟨y, hy⟩ := (Finite.injective_iff_surjective.mp hinj) ⟨2 ^ 127, by norm_num⟩
  refine ⟨y, y.2, ?_⟩
  rw [(gfMul_val x y hx y.2).1]
  exact congrArg Except.ok (congrArg Fin.val hy)

/-- Non-trivial: two messages of different structure. -/
example : (gcmBlocks (ascii "a") (ascii "bc")).length = 3 := by decide +kernel

end Verif
