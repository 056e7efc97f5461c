import Verif.Spec.WeakPoints
import Verif.Props.Curves
/-
What the kernel computes about the pairs of `Spec.weakPoints` (C119), a few at a time to bound the memory.
-/

namespace Verif
open Spec

set_option Elab.async false

/-- What the kernel computes about one pair. -/
def weakOk (e : ℕ × ℤ × ℤ) : Bool :=
  decide (3 ≤ e.1) && decide (e.1 < 14400) && (List.range 120).all (fun m => m < 2 || e.1 ≤ m || e.1 % m != 0) &&
    decide (e.2.2.fmod P256.p ≠ 0) && !element (some e.2) P256.a P256.b P256.p &&
    decide (mulA P256.a (curveQ e.2.1 e.2.2 P256.a P256.p) P256.p (some e.2) e.1 = none)

theorem all_take_drop {α : Type} (p : α → Bool) (n : ℕ) (l : List α) (h1 : (l.take n).all p = true) (h2 : (l.drop n).all p = true) :
    l.all p = true := by
  rw [← List.take_append_drop n l, List.all_append, h1, h2]
  rfl

theorem all_step {α : Type} (p : α → Bool) (m n : ℕ) (l : List α) (h1 : ((l.drop m).take n).all p = true)
    (h2 : (l.drop (m + n)).all p = true) : (l.drop m).all p = true :=
  all_take_drop p n _ h1 (by rwa [List.drop_drop])

set_option maxRecDepth 100000 in
theorem weakPoints_ok0 : ((weakPoints.drop 0).take 6).all weakOk = true := by decide +kernel

set_option maxRecDepth 100000 in
theorem weakPoints_ok6 : ((weakPoints.drop 6).take 6).all weakOk = true := by decide +kernel

set_option maxRecDepth 100000 in
theorem weakPoints_ok12 : ((weakPoints.drop 12).take 6).all weakOk = true := by decide +kernel

set_option maxRecDepth 100000 in
theorem weakPoints_ok18 : ((weakPoints.drop 18).take 6).all weakOk = true := by decide +kernel

set_option maxRecDepth 100000 in
theorem weakPoints_ok24 : ((weakPoints.drop 24).take 6).all weakOk = true := by decide +kernel

set_option maxRecDepth 100000 in
theorem weakPoints_ok30 : ((weakPoints.drop 30).take 6).all weakOk = true := by decide +kernel

set_option maxRecDepth 100000 in
theorem weakPoints_ok36 : ((weakPoints.drop 36).take 6).all weakOk = true := by decide +kernel

set_option maxRecDepth 100000 in
theorem weakPoints_ok42 : ((weakPoints.drop 42).take 6).all weakOk = true := by decide +kernel

set_option maxRecDepth 100000 in
theorem weakPoints_ok48 : ((weakPoints.drop 48).take 6).all weakOk = true := by decide +kernel

set_option maxRecDepth 100000 in
theorem weakPoints_ok54 : ((weakPoints.drop 54).take 6).all weakOk = true := by decide +kernel

theorem weakPoints_end : (weakPoints.drop 60).all weakOk = true := by decide +kernel

theorem weakPoints_ok : weakPoints.all weakOk = true :=
  all_step weakOk 0 6 weakPoints weakPoints_ok0 <|
  all_step weakOk 6 6 weakPoints weakPoints_ok6 <|
  all_step weakOk 12 6 weakPoints weakPoints_ok12 <|
  all_step weakOk 18 6 weakPoints weakPoints_ok18 <|
  all_step weakOk 24 6 weakPoints weakPoints_ok24 <|
  all_step weakOk 30 6 weakPoints weakPoints_ok30 <|
  all_step weakOk 36 6 weakPoints weakPoints_ok36 <|
  all_step weakOk 42 6 weakPoints weakPoints_ok42 <|
  all_step weakOk 48 6 weakPoints weakPoints_ok48 <|
  all_step weakOk 54 6 weakPoints weakPoints_ok54 <|
  weakPoints_end

theorem weakPoints_coprime : weakPoints.Pairwise (Function.onFun Nat.Coprime Prod.fst) := by decide +kernel

theorem weakPoints_prod : P256.N ^ 2 < (weakPoints.map Prod.fst).prod := by decide +kernel

end Verif
