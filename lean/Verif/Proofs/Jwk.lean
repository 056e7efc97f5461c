import Verif.Props.Ints
import Verif.Props.Jwt
import Verif.Proofs.Jws
import Verif.Spec.Jwk
/-
Lemmas about `Model/Jwk`.
-/

namespace Verif
open Spec

/-- The text `long_to_base64` gives for a positive integer. -/
def uintTxt (n : Nat) : String := match longToBase64 n with | .ok s => s | .error _ => ""

theorem longToBase64_txt {n : Nat} (h : 0 < n) : longToBase64 n = .ok (uintTxt n) := by
  obtain ⟨s, bs, h1, -⟩ := C05_roundtrip n h
  simp [uintTxt, h1]

theorem uintTxt_spec {n : Nat} (h : 0 < n) : UIntText n (uintTxt n) ∧
    base64ToLongBytes (utf8Encode (uintTxt n)) = .ok n := by
  obtain ⟨s, bs, h1, h2, h3, h4, h5, h6⟩ := C05_roundtrip n h
  have e : uintTxt n = s := by simp [uintTxt, h1]
  have e2 := (asciiEncode_utf8 h2).1
  rw [e, e2]
  refine ⟨⟨bs, ?_, h3, h4, h⟩, h6⟩
  rw [e2]
  exact C02_rfc4648 bs

theorem bytesValue_inj {a b : Bytes} (h : bytesValue a = bytesValue b)
    (ha : ∀ x ∈ a.head?, x ≠ 0) (hb : ∀ x ∈ b.head?, x ≠ 0) : a = b := by
  have key : a.map UInt8.toNat = b.map UInt8.toNat := by
    refine beValue_inj' 256 (by decide) _ _ ?_ ?_ ?_ ?_ h
    · intro x hx
      obtain ⟨y, -, rfl⟩ := List.mem_map.mp hx
      exact y.toNat_lt
    · intro x hx
      obtain ⟨y, -, rfl⟩ := List.mem_map.mp hx
      exact y.toNat_lt
    · intro x hx
      simp only [List.head?_map, Option.mem_def, Option.map_eq_some_iff] at hx
      obtain ⟨y, hy, rfl⟩ := hx
      intro h0
      exact ha y hy (UInt8.toNat_inj.mp (by simpa using h0))
    · intro x hx
      simp only [List.head?_map, Option.mem_def, Option.map_eq_some_iff] at hx
      obtain ⟨y, hy, rfl⟩ := hx
      intro h0
      exact hb y hy (UInt8.toNat_inj.mp (by simpa using h0))
  exact List.map_injective_iff.mpr (fun _ _ h => UInt8.toNat_inj.mp h) key

theorem Spec.UIntText.unique {n : Nat} {s t : String} (hs : UIntText n s) (ht : UIntText n t) : s = t := by
  obtain ⟨a, ha, hav, ha0, -⟩ := hs
  obtain ⟨b, hb, hbv, hb0, -⟩ := ht
  have hab : a = b := bytesValue_inj (by rw [hav, hbv]) ha0 hb0
  subst hab
  exact utf8Encode_inj ((C02_unique _ _ ha).trans (C02_unique _ _ hb).symm)

theorem Spec.UIntText.inj {n m : Nat} {s : String} (hs : UIntText n s) (ht : UIntText m s) : n = m := by
  obtain ⟨a, ha, hav, -, -⟩ := hs
  obtain ⟨b, hb, hbv, -, -⟩ := ht
  have := C02_injective a b ((C02_unique _ _ ha).symm.trans (C02_unique _ _ hb))
  rw [← hav, ← hbv, this]

theorem Spec.UIntText.eq_txt {n : Nat} {s : String} (hs : UIntText n s) : s = uintTxt n :=
  hs.unique (uintTxt_spec hs.choose_spec.2.2.2).1

theorem Spec.UIntText.ne_empty {n : Nat} {s : String} (hs : UIntText n s) : s ≠ "" := by
  rintro rfl
  obtain ⟨a, ha, hav, ha0, hn⟩ := hs
  have hl := isB64Url_length ha
  have : a = [] := by
    have h0 : (utf8Encode "").length = 0 := by decide +kernel
    rw [h0] at hl
    exact List.length_eq_zero_iff.mp (by omega)
  subst this
  simp [bytesValue, beValue] at hav
  omega

/-! ### Serialization of numbers -/

/-- `res[p] = text` when there is a number. -/
def optSet (res : PyDict) (p : String) : Option Nat → PyDict
  | none => res
  | some n => PyDict.set res p (.str (uintTxt n))

theorem int_truthy {n : Nat} (h : 0 < n) : (PyVal.int n).truthy = true := by
  simp only [PyVal.truthy, bne_iff_ne, ne_eq]
  omega

theorem longToBase64Val_pos {n : Nat} (h : 0 < n) :
    longToBase64Val (.int n) = .ok (.str (uintTxt n)) := by
  simp only [longToBase64Val, PyVal.asInt?]
  rw [if_neg (by omega)]
  simp [longToBase64_txt h, Except.map]

theorem serLong_holds {v : PyVal} {o : Option Nat} (h : Holds v o) (res : PyDict) (p : String) :
    serLong res p v = .ok (optSet res p o) := by
  cases h with
  | absent h => simp [serLong, h, optSet]
  | number h => simp [serLong, int_truthy h, longToBase64Val_pos h, optSet, Except.map]

theorem get?_optSet (d : PyDict) (p q : String) (o : Option Nat) :
    PyDict.get? (optSet d p o) q =
      if q = p ∧ o.isSome then o.map (fun n => .str (uintTxt n)) else PyDict.get? d q := by
  cases o with
  | none => simp [optSet]
  | some n =>
    simp only [optSet, PyDict.get?_set, Option.isSome_some, and_true, Option.map_some]

theorem get?_map (d : PyDict) (f : PyVal → PyVal) (s : String) :
    PyDict.get? (d.map fun kv => (kv.1, f kv.2)) s = (PyDict.get? d s).map f := by
  unfold PyDict.get?
  induction d with
  | nil => rfl
  | cons kv d ih =>
    obtain ⟨k, v⟩ := kv
    simp only [List.map_cons, List.lookup]
    cases h : s == k <;> simp [ih]

theorem get?_cons (k s : String) (v : PyVal) (d : PyDict) :
    PyDict.get? ((k, v) :: d) s = if s = k then some v else PyDict.get? d s := by
  unfold PyDict.get?
  rw [List.lookup]
  by_cases h : s = k
  · subst h; simp
  · rw [if_neg h, beq_false_of_ne h]

theorem get?_append (a b : PyDict) (s : String) :
    PyDict.get? (a ++ b) s = (PyDict.get? a s).or (PyDict.get? b s) := by
  induction a with
  | nil => simp [PyDict.get?]
  | cons kv a ih =>
    obtain ⟨k, v⟩ := kv
    rw [List.cons_append, get?_cons, get?_cons, ih]
    split <;> simp

theorem get?_if (c : Bool) (k s : String) (v : PyVal) :
    PyDict.get? (if c = true then [(k, v)] else []) s = if s = k ∧ c = true then some v else none := by
  cases c
  · simp [PyDict.get?]
  · simp only [if_true, and_true, get?_cons]
    rfl

theorem get?_common (k : Key) (s : String) :
    PyDict.get? k.common s =
      if s = "kty" then some k.kty
      else if s = "use" ∧ k.use.truthy then some k.use
      else if s = "kid" ∧ k.kid.truthy then some k.kid
      else if s = "alg" ∧ k.alg.truthy then some k.alg
      else none := by
  unfold Key.common
  rw [get?_append, get?_append, get?_append, get?_if, get?_if, get?_if, get?_cons]
  have h0 : PyDict.get? [] s = none := rfl
  rw [h0]
  split
  · rfl
  · split
    · rfl
    · split
      · rfl
      · split <;> rfl

/-- The value a serialized number has after `keyrep` turned text into bytes. -/
def loadVal : Option Nat → PyVal
  | none => .str ""
  | some n => .bytes (utf8Encode (uintTxt n))

/-- The attribute value a number is loaded into. -/
def numVal : Option Nat → PyVal
  | none => .str ""
  | some n => .int n

def Pos (o : Option Nat) : Prop := ∀ n, o = some n → 0 < n

theorem Spec.Holds.pos {v : PyVal} {o : Option Nat} (h : Holds v o) : Pos o := by
  cases h with
  | absent h => intro n hn; cases hn
  | number h => intro n hn; cases hn; exact h

theorem holds_numVal {o : Option Nat} (h : Pos o) : Holds (numVal o) o := by
  cases o with
  | none => exact .absent rfl
  | some n => exact .number (h n rfl)

theorem empty_truthy : (PyVal.str "").truthy = false := rfl

theorem utf8Encode_ne {s : String} (h : s ≠ "") : utf8Encode s ≠ [] := by
  intro h0
  apply h
  apply utf8Encode_inj
  rw [h0]
  decide +kernel

theorem rsaLong_loadVal {o : Option Nat} (h : Pos o) : rsaLong (loadVal o) = .ok (numVal o) := by
  cases o with
  | none => rfl
  | some n =>
    obtain ⟨h1, h2⟩ := uintTxt_spec (h n rfl)
    have hb : (PyVal.bytes (utf8Encode (uintTxt n))).truthy = true := by
      simpa [PyVal.truthy] using utf8Encode_ne h1.ne_empty
    simp [rsaLong, loadVal, hb, isInt, deser, h2, Except.map, numVal]

theorem strAttr_text {v : PyVal} (h : ∃ s, v = .str s) :
    strAttr (((if v.truthy then some v else none).map asBytes).getD (.str "")) = v := by
  obtain ⟨s, rfl⟩ := h
  by_cases hs : s = ""
  · subst hs; rfl
  · have : (PyVal.str s).truthy = true := by simpa [PyVal.truthy] using hs
    simp [this, asBytes, strAttr, asUnicode_encode]

theorem numVal_truthy (o : Option Nat) (h : Pos o) : (numVal o).truthy = o.isSome := by
  cases o with
  | none => rfl
  | some n => exact int_truthy (h n rfl)

end Verif
