import Verif.Model.Pbkdf2
import Mathlib.Data.List.Basic
/-
C67: the `PBKDF2` module cannot be used under Python 3.
-/

namespace Verif

theorem encodeUtf8Step_isStr (v : PyVal) : (encodeUtf8Step v).isStr = false := by
  cases v <;> rfl

/-- **C67.** No `PBKDF2` object can be constructed: every call raises `TypeError`, whatever the
passphrase (text, bytes or anything else), salt and number of iterations. -/
theorem C67_new (passphrase salt iterations : PyVal) :
    Pbkdf2.new passphrase salt iterations = .error .typeError := by
  simp [Pbkdf2.new, Pbkdf2.setup, encodeUtf8Step_isStr]

/-- **C67.** `crypt` never returns.  It raises `TypeError`, except for a salt text with a character
outside ASCII, for which it is `UnicodeEncodeError`. -/
theorem C67_crypt (rnd : Nat → Nat) (rest : PyVal → PyVal → PyVal → PyM PyVal) (word salt iterations : PyVal) :
    ((∃ s, salt = .str s ∧ ∃ c ∈ s.toList, 128 ≤ c.toNat) →
      pbkdf2Crypt rnd rest word salt iterations = .error .unicodeEncodeError) ∧
    (¬ (∃ s, salt = .str s ∧ ∃ c ∈ s.toList, 128 ≤ c.toNat) →
      pbkdf2Crypt rnd rest word salt iterations = .error .typeError) := by
  constructor
  · rintro ⟨s, rfl, c, h1, h2⟩
    have : asciiEncode s = .error .unicodeEncodeError := by
      unfold asciiEncode
      rw [if_neg]
      intro h
      have := List.all_eq_true.mp h c h1
      simp at this; omega
    simp [pbkdf2Crypt, encodeAsciiStep, this, Bind.bind, Except.bind]
  · intro h
    cases salt with
    | str s =>
      have : ∃ b, asciiEncode s = .ok b := by
        unfold asciiEncode
        rw [if_pos]
        · exact ⟨_, rfl⟩
        simp only [List.all_eq_true]
        intro c hc
        have : ¬ 128 ≤ c.toNat := fun h' => h ⟨s, rfl, c, hc, h'⟩
        simp; omega
      obtain ⟨b, hb⟩ := this
      simp [pbkdf2Crypt, encodeAsciiStep, hb, Bind.bind, Except.bind, PyVal.isStr]
    | _ => rfl

/-- C67_new, C67_crypt on the sample usage of the module (PBKDF2.py:35, 42, 332) and on a salt with
an umlaut. -/
example (rnd : Nat → Nat) (rest : PyVal → PyVal → PyVal → PyM PyVal) :
    Pbkdf2.new (.str "This passphrase is a secret.") (.bytes [1, 2, 3, 4, 5, 6, 7, 8]) = .error .typeError ∧
    pbkdf2Crypt rnd rest (.str "secret") = .error .typeError ∧
    pbkdf2Crypt rnd rest (.str "cloadm") (.str "exec") = .error .typeError ∧
    pbkdf2Crypt rnd rest (.str "cloadm") (.str "ä") = .error .unicodeEncodeError := by
  refine ⟨C67_new _ _ _, (C67_crypt _ _ _ _ _).2 (by simp), (C67_crypt _ _ _ _ _).2 ?_,
    (C67_crypt _ _ _ _ _).1 ⟨_, rfl, 'ä', by decide, by decide⟩⟩
  rintro ⟨s, hs, h⟩
  cases hs
  revert h; decide

end Verif
