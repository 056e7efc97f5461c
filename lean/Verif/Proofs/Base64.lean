import Verif.Proofs.Base64Bits
/-
Closed form of `b64d`.
-/

namespace Verif
open Spec

theorem a2bLoop_pads (k q left : Nat) (hq : q < 4) :
    a2bLoop (List.replicate k 61) q left 0 =
      if q = 0 ∨ (q = 2 ∧ 2 ≤ k) ∨ (q = 3 ∧ 1 ≤ k) then .ok [] else .error .binasciiError := by
  have low : ∀ k q p, q < 2 → a2bLoop (List.replicate k 61) q left p =
      if q = 0 then .ok [] else .error .binasciiError := by
    intro k q p hq
    induction k with
    | zero => simp [a2bLoop]
    | succ k ih => simp [List.replicate_succ, a2bLoop, ih]; omega
  have : q = 0 ∨ q = 1 ∨ q = 2 ∨ q = 3 := by omega
  rcases this with rfl | rfl | rfl | rfl
  · rw [low _ _ _ (by omega)]; simp
  · rw [low _ _ _ (by omega)]; simp
  · match k with
    | 0 => simp [a2bLoop]
    | 1 => simp [a2bLoop]
    | k + 2 => simp [List.replicate_succ, a2bLoop]
  · match k with
    | 0 => simp [a2bLoop]
    | k + 1 => simp [List.replicate_succ, a2bLoop]

theorem a2bLoop_newline (tail : Bytes) (q left p : Nat) :
    a2bLoop (10 :: tail) q left p = a2bLoop tail q left p := by
  have h : b64Val 10 = none := by decide
  simp [a2bLoop, h]

/-- The decoder on alphabet characters, an optional newline and padding. -/
theorem urlsafeB64decode_shape (d nl : Bytes) (k : Nat) (hd : ∀ c ∈ d, c ∈ urlAlphabet)
    (hnl : nl = [] ∨ nl = [10]) :
    urlsafeB64decode (d ++ nl ++ List.replicate k 61) =
      if d.length % 4 = 0 ∨ (d.length % 4 = 2 ∧ 2 ≤ k) ∨ (d.length % 4 = 3 ∧ 1 ≤ k)
      then .ok (dec' (d.map urlAlphabet.idxOf)) else .error .binasciiError := by
  have h61 : fromUrl 61 = 61 := by decide
  have h10 : fromUrl 10 = 10 := by decide
  unfold urlsafeB64decode a2bBase64
  rw [List.map_append, List.map_append, List.map_replicate, h61, List.append_assoc]
  obtain ⟨left, e⟩ := a2bLoop_alpha d (nl.map fromUrl ++ List.replicate k 61) hd
  rw [e]
  have : a2bLoop (nl.map fromUrl ++ List.replicate k 61) (d.length % 4) left 0 =
      a2bLoop (List.replicate k 61) (d.length % 4) left 0 := by
    rcases hnl with rfl | rfl
    · simp
    · simp [h10, a2bLoop_newline]
  rw [this, a2bLoop_pads _ _ _ (by omega)]
  split <;> simp [Except.map]

theorem b64ReMatch_iff (cb : Bytes) : b64ReMatch cb = true ↔
    ∃ d nl, cb = d ++ nl ∧ (∀ c ∈ d, c ∈ urlAlphabet) ∧ (nl = [] ∨ nl = [10]) := by
  unfold b64ReMatch
  simp only [Bool.or_eq_true, Bool.and_eq_true, List.all_eq_true, isB64Url_iff, beq_iff_eq]
  constructor
  · rintro (h | ⟨h1, h2⟩)
    · exact ⟨cb, [], by simp, h, .inl rfl⟩
    · obtain ⟨ys, rfl⟩ := List.getLast?_eq_some_iff.mp h1
      exact ⟨ys, [10], rfl, by simpa using h2, .inr rfl⟩
  · rintro ⟨d, nl, rfl, hd, rfl | rfl⟩
    · left; simpa using hd
    · right; simpa using hd

theorem rstrip_shape (d nl : Bytes) (k : Nat) (hd : ∀ c ∈ d, c ∈ urlAlphabet)
    (hnl : nl = [] ∨ nl = [10]) : rstrip 61 (d ++ nl ++ List.replicate k 61) = d ++ nl := by
  apply rstrip_append_replicate
  intro c hc
  rcases hnl with rfl | rfl
  · exact (b64Val_fromUrl c (hd c (by simpa using List.mem_of_getLast? hc))).2.2.1
  · simp at hc; subst hc; decide

/-- `b64d` in closed form on every text that passes its regular expression. -/
theorem b64d_shape (d nl : Bytes) (k : Nat) (hd : ∀ c ∈ d, c ∈ urlAlphabet)
    (hnl : nl = [] ∨ nl = [10]) :
    b64d (d ++ nl ++ List.replicate k 61) =
      if (nl = [] ∨ 1 ≤ k) ∧ PadOk d.length k then .ok (dec' (d.map urlAlphabet.idxOf))
      else if k = 0 ∧ (d.length + nl.length) % 4 = 1 then .error .badSyntax
      else .error .binasciiError := by
  unfold b64d
  rw [rstrip_shape d nl k hd hnl]
  have hre : b64ReMatch (d ++ nl) = true := (b64ReMatch_iff _).mpr ⟨d, nl, rfl, hd, hnl⟩
  simp only [hre]
  have hdec := fun k => urlsafeB64decode_shape d nl k hd hnl
  cases k with
  | succ k =>
    have hne : ¬ (d ++ nl = d ++ nl ++ List.replicate (k + 1) 61) := by
      intro h
      have := congrArg List.length h
      simp at this
    simp only [hne, if_false, hdec, Bool.true_eq_false]
    by_cases hp : PadOk d.length (k + 1)
    · rw [if_pos, if_pos ⟨.inr (by omega), hp⟩]
      unfold PadOk at hp; omega
    · rw [if_neg, if_neg (fun h => hp h.2), if_neg (by omega)]
      unfold PadOk at hp; omega
  | zero =>
    have e0 : d ++ nl ++ List.replicate 0 61 = d ++ nl := by simp
    simp only [e0, if_true, Bool.true_eq_false, if_false]
    unfold addPadding
    have d0 := hdec 0
    have d1 := hdec 1
    have d2 := hdec 2
    rw [e0] at d0
    simp only [List.replicate] at d1 d2
    rcases hnl with rfl | rfl
    · simp only [List.append_nil, List.length_nil, Nat.add_zero, true_or, true_and] at *
      have : d.length % 4 = 0 ∨ d.length % 4 = 1 ∨ d.length % 4 = 2 ∨ d.length % 4 = 3 := by omega
      rcases this with h | h | h | h <;>
        simp [h, PadOk, d0, d1, d2, Bind.bind, Except.bind]
    · have h0 : ¬ (([10] : Bytes) = [] ∨ 1 ≤ 0) := by simp
      simp only [List.length_append, List.length_singleton, h0, false_and, if_false, true_and]
      have : d.length % 4 = 0 ∨ d.length % 4 = 1 ∨ d.length % 4 = 2 ∨ d.length % 4 = 3 := by omega
      rcases this with h | h | h | h <;>
        (have h' : (d.length + 1) % 4 = (d.length % 4 + 1) % 4 := by omega
         simp only [h', h]
         simp [d0, d1, d2, h, Bind.bind, Except.bind, -List.append_assoc])

theorem decodesTo_length {d out : Bytes} (h : DecodesTo d out) :
    out.length = 6 * d.length / 8 := by
  obtain ⟨r, hr, e⟩ := h
  have := congrArg List.length e
  rw [List.length_append, sextetBits_flat_length, byteBits_flat_length] at this
  omega

theorem decodesTo_unique {d o1 o2 : Bytes} (h1 : DecodesTo d o1) (h2 : DecodesTo d o2) :
    o1 = o2 := by
  have l1 := decodesTo_length h1
  have l2 := decodesTo_length h2
  obtain ⟨r1, _, e1⟩ := h1
  obtain ⟨r2, _, e2⟩ := h2
  exact (flatMap_prefix_inj byteBits 8 byteBits_length (P := fun _ => True)
    (fun _ _ _ _ => byteBits_inj) o1 o2 r1 r2 (by simp) (by simp) (by omega)
    (by rw [← e1, ← e2])).1

end Verif
