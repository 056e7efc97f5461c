import Verif.Props.JwsJson
import Verif.Model.Accessors
/-
C121: accessors of tokens and objects that nothing in the package calls.
-/

namespace Verif
open Spec

/-- **C121.** For an unpacked token the accessors give the segments of the text, in order and unchanged, and the
decoded accessors what `b64d` makes of them; beyond the last segment both raise `IndexError`. -/
theorem C121_segments {t : Bytes} {j : Jwt} (h : Jwt.unpack t = .ok j) (i : Nat) :
    (∀ s, j.b64At i = .ok s ↔ ∃ l, Segments t l ∧ l[i]? = some s) ∧
    (∀ s, j.b64At i = .ok s → ∃ p, b64d s = .ok p ∧ j.partAt i = .ok p) ∧
    (t.count 46 < i → j.b64At i = .error .indexError ∧ j.partAt i = .error .indexError) ∧
    (i ≤ t.count 46 → (j.b64At i).Returns) := by
  obtain ⟨-, h2, h3, -⟩ := (C09_unpack_iff t j).mp h
  obtain ⟨hl1, hl2⟩ := C09_count t j h
  unfold Jwt.b64At Jwt.partAt
  refine ⟨fun s => ⟨fun hs => ?_, ?_⟩, fun s hs => ?_, fun hi => ?_, fun hi => ?_⟩
  · refine ⟨j.b64part, h2, ?_⟩
    split at hs
    · rename_i p hp
      cases hs; exact hp
    · cases hs
  · rintro ⟨l, hl, hs⟩
    rw [C09_segments_unique h2 hl, hs]
  · split at hs
    · rename_i p hp
      cases hs
      obtain ⟨hi, hp⟩ := List.getElem?_eq_some_iff.mp hp
      have hi' : i < j.part.length := by omega
      refine ⟨j.part[i], ?_, by rw [List.getElem?_eq_getElem hi']⟩
      have := List.forall₂_iff_get.mp h3
      have := this.2 i hi hi'
      simpa [hp] using this
    · cases hs
  · rw [List.getElem?_eq_none (by omega), List.getElem?_eq_none (by omega)]
    exact ⟨rfl, rfl⟩
  · rw [List.getElem?_eq_getElem (by omega)]
    exact ⟨_, rfl⟩

/-- **C121.** `valid()` is True exactly for two dots, and then the three segments joined are the token. -/
theorem C121_valid {t : Bytes} {j : Jwt} (h : Jwt.unpack t = .ok j) :
    (j.valid = true ↔ t.count 46 = 2) ∧
    (j.valid = true → ∃ a b c, j.b64At 0 = .ok a ∧ j.b64At 1 = .ok b ∧ j.b64At 2 = .ok c ∧
      t = a ++ 46 :: b ++ 46 :: c) := by
  obtain ⟨hl1, hl2⟩ := C09_count t j h
  have hv : j.valid = true ↔ t.count 46 = 2 := by
    unfold Jwt.valid
    split <;> simp <;> omega
  refine ⟨hv, fun hh => ?_⟩
  have hc := hv.mp hh
  obtain ⟨-, h2, -⟩ := (C09_unpack_iff t j).mp h
  obtain ⟨hdrs, bp, pp⟩ := j
  simp only at hl2 h2 ⊢
  match bp, (by omega : bp.length = 3) with
  | [a, b, c], _ => exact ⟨a, b, c, rfl, rfl, rfl, by rw [← h2.2.1]; simp [joinDot]⟩

/-- **C121.** `protected_header()` is the JSON text of the header. -/
theorem C121_header {t : Bytes} {j : Jwt} (h : Jwt.unpack t = .ok j) :
    ∃ p s, j.protectedHeader = .ok p ∧ p = utf8Encode s ∧ jsonLoads s = .ok j.headers := by
  obtain ⟨-, -, -, p0, rest, s, hp, hs, hj⟩ := (C09_unpack_iff t j).mp h
  exact ⟨p0, s, by simp [Jwt.protectedHeader, Jwt.partAt, hp], (utf8Encode_of_decode hs).symm, hj⟩

/-- **C121.** `dump_header()` is the header parameters among the settings: nothing else, nothing missing. -/
theorem C121_dump (o : Jwx) (x : String) :
    PyDict.get? o.dumpHeader.1 x =
      (if x ∈ ["alg", "jku", "x5u", "x5t", "x5c", "kid", "typ", "cty", "crit"] then PyDict.get? o.dict x
        else none) ∧ o.dumpHeader.2 = o.jwk := by
  refine ⟨?_, rfl⟩
  rw [show ["alg", "jku", "x5u", "x5t", "x5c", "kid", "typ", "cty", "crit"] = jwxArgs from rfl]
  show PyDict.get? (jwxArgs.filterMap fun x => (PyDict.get? o.dict x).map fun v => (x, v)) x = _
  induction jwxArgs with
  | nil => rfl
  | cons a l ih =>
    rw [List.filterMap_cons]
    cases ha : PyDict.get? o.dict a with
    | none =>
      simp only [Option.map_none, ih, List.mem_cons]
      by_cases hx : x = a
      · subst hx; simp [ha]
      · simp [hx]
    | some v =>
      simp only [Option.map_some, List.mem_cons]
      by_cases hx : x = a
      · subst hx; simpa [PyDict.get?] using ha.symm
      · have : (x == a) = false := by simpa using hx
        simp only [PyDict.get?, List.lookup_cons, this, hx, false_or] at ih ⊢
        exact ih

/-- **C121.** `_decode` and `payload` disagree about `cty`: `_decode` parses JSON only for the spelling `JWT` and
otherwise returns bytes. -/
theorem C121_decode (E : Env) (o : Jwx) (m : Bytes) :
    (PyDict.get? o.dict "cty" ≠ some (.str "JWT") → o.decode E (b64e m) = .ok (.bytes m)) ∧
    (∀ s v, m = utf8Encode s → (0 : UInt8) ∉ m → ¬ [0xef, 0xbb, 0xbf] <+: m → jsonLoads s = .ok v →
      PyDict.get? o.dict "cty" = some (.str "JWT") → o.decode E (b64e m) = .ok v) := by
  unfold Jwx.decode
  simp only [C01_roundtrip, Bind.bind, Except.bind]
  constructor
  · intro h
    cases hc : PyDict.get? o.dict "cty" with
    | none => rfl
    | some c =>
      have : c.pyEq (.str "JWT") = false := by
        rw [← Bool.not_eq_true, pyEq_str_iff]
        rintro rfl
        exact h hc
      simp [this]
  · intro s v hm h0 hb hj hc
    have : (PyVal.str "JWT").pyEq (.str "JWT") = true := (pyEq_str_iff _ _).mpr rfl
    simp only [hc, this, if_true, jsonLoadsBytes]
    rw [if_neg (by simp [h0, hb]), hm, utf8Decode_encode]
    exact hj

/-- **C121.** `rsa_eq` compares the public halves. -/
theorem C121_rsa_eq (a b : RsaKey) : rsaEq a b = true ↔ a.SamePublic b := by
  unfold rsaEq RsaKey.SamePublic
  split <;> simp_all [eq_comm]

/-! ### Examples -/

/-- A token whose header is `{}`, with one more part than a signed one. -/
example : ∃ j, Jwt.unpack (ascii "e30.AQI..AA") = .ok j ∧ j.valid = false ∧ j.b64At 1 = .ok (ascii "AQI") ∧
    j.partAt 1 = .ok [1, 2] ∧ j.b64At 3 = .ok (ascii "AA") ∧ j.b64At 4 = .error .indexError :=
  ⟨⟨.dict [], [ascii "e30", ascii "AQI", [], ascii "AA"], [ascii "{}", [1, 2], [], [0]]⟩, by decide +kernel, rfl, rfl, rfl, rfl, rfl⟩

/-- `payload()` takes `cty` in any letter case, `_decode` does not. -/
example : (Jwt.payload (fun _ => .error .valueError) ⟨.dict [("cty", .str "jwt")], [[], []], [[], ascii "{}"]⟩ = .ok (.dict [])) ∧
    Jwx.decode toyEnv { dict := [("cty", .str "jwt")] } (b64e (ascii "{}")) = .ok (.bytes (ascii "{}")) ∧
    Jwx.decode toyEnv { dict := [("cty", .str "JWT")] } (b64e (ascii "{}")) = .ok (.dict []) := by decide +kernel

example : (Jwx.dumpHeader { dict := [("alg", .str "HS256"), ("b64", .bool false)] }).1 = [("alg", .str "HS256")] := by decide

example : rsaEq ⟨33, 3, none⟩ ⟨33, 3, some (7, 3, 11)⟩ = true ∧ rsaEq ⟨33, 3, none⟩ ⟨33, 7, none⟩ = false := by decide

end Verif
