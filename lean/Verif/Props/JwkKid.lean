import Verif.Props.JwkNew
/-
C123: the check of the type of `kid` in `ECKey`.
-/

namespace Verif
open Spec

/-- A number or nothing: what `Key.verify` passes over. -/
def Spec.NumberOrEmpty (v : PyVal) : Prop := v.truthy = false ∨ (∃ i, v = .int i) ∨ ∃ b, v = .bool b

/-- A non-empty value that is no text, also after the attempt to decode it as UTF-8. -/
def Spec.NoText (v : PyVal) : Prop :=
  v.truthy = true ∧ (∀ s, v ≠ .str s) ∧ ∀ b, v = .bytes b → ∀ s, utf8Decode b ≠ .ok s

theorem verifyLongs_numbers : ∀ {l : List PyVal}, (∀ v ∈ l, NumberOrEmpty v) → verifyLongs l = .ok (l, true)
  | [], _ => rfl
  | v :: l, h => by
    have hv : (v.truthy = false || isInt v || listLong v) = true := by
      rcases h v (by simp) with h | ⟨i, rfl⟩ | ⟨b, rfl⟩
      · simp [h]
      · simp [isInt]
      · simp [isInt]
    unfold verifyLongs
    rw [if_pos hv, verifyLongs_numbers fun w hw => h w (by simp [hw])]
    rfl

theorem verifyLongs_text {s : String} (hs : s ≠ "") : ∀ {l : List PyVal}, .str s ∈ l →
    (∃ e, verifyLongs l = .error e) ∨ ∃ l', verifyLongs l = .ok (l', false)
  | v :: l, h => by
    unfold verifyLongs
    by_cases hv : (v.truthy = false || isInt v || listLong v) = true
    · rw [if_pos hv]
      have hl : .str s ∈ l := by
        rcases List.mem_cons.mp h with h | h
        · subst h; simp [isInt, listLong, PyVal.truthy, hs] at hv
        · exact h
      rcases verifyLongs_text hs hl with ⟨e, h⟩ | ⟨l', h⟩
      · exact .inl ⟨e, by rw [h]; rfl⟩
      · exact .inr ⟨v :: l', by rw [h]; rfl⟩
    · rw [if_neg hv]
      split
      · rename_i b
        cases utf8Decode b with
        | ok s => exact .inr ⟨_, rfl⟩
        | error e => exact .inl ⟨e, rfl⟩
      · exact .inr ⟨_, rfl⟩

/-- **C123.** An EC key made from numbers is refused if its `kid` is no text. -/
theorem C123_numbers {kw : PyDict} {key curve : KObj} {rnd : Nat} {kid : PyVal} (hself : PyDict.get? kw "self" = none)
    (hcrv : (argText kw "crv").truthy = true) (hcurve : curve.truthy = false)
    (hx : NumberOrEmpty (argText kw "x")) (hy : NumberOrEmpty (argText kw "y")) (hd : NumberOrEmpty (argText kw "d"))
    (hkid : PyDict.get? kw "kid" = some kid) (h : NoText kid) :
    ecKeyNew kw key curve rnd = .error .headerError := by
  unfold ecKeyNew
  simp only [kwGet, PyDict.has, hself]
  simp only [argText] at hcrv hx hy hd
  simp only [Option.isSome_none, Bool.false_eq_true, if_false, hcrv, hcurve, and_self, if_true, Bind.bind]
  rw [verifyLongs_numbers (by simp only [List.mem_cons, List.not_mem_nil, or_false]; rintro v (rfl | rfl | rfl) <;> assumption)]
  have : verifyKid (strAttr kid) = .error .headerError := by
    obtain ⟨h1, h2, h3⟩ := h
    have ht : (strAttr kid).truthy = true ∧ ∀ s, strAttr kid ≠ .str s := by
      cases kid with
      | bytes b =>
        have h3 := h3 b rfl
        simp only [strAttr, asUnicode]
        cases hb : utf8Decode b with
        | ok s => exact absurd hb (h3 s)
        | error e => exact ⟨h1, by simp⟩
      | _ => exact ⟨h1, h2⟩
    unfold verifyKid
    rw [if_pos ht.1]
    split
    · rename_i s hs; exact absurd hs (ht.2 s)
    · rfl
  simp [Except.bind, keyCommon, hkid, kwGet, this]

/-- **C123.** Made from a JWK, whose numbers are text, it is not: whatever `kid` is, the key is made (or refused) as
without it, and has it as its `kid`. -/
theorem C123_text {kw : PyDict} {key curve : KObj} {rnd : Nat} {kid : PyVal} {m s : String}
    (hcrv : (argText kw "crv").truthy = true) (hcurve : curve.truthy = false)
    (hm : m ∈ ["x", "y", "d"]) (hms : PyDict.get? kw m = some (.str s)) (hs : s ≠ "") :
    ecKeyNew (("kid", kid) :: kw) key curve rnd = (ecKeyNew kw key curve rnd).map fun k => { k with kid := strAttr kid } := by
  have g : ∀ x, x ≠ "kid" → PyDict.get? (("kid", kid) :: kw) x = PyDict.get? kw x := by
    intro x hx
    have : (x == "kid") = false := by simpa using hx
    simp [PyDict.get?, List.lookup_cons, this]
  have gk : PyDict.get? (("kid", kid) :: kw) "kid" = some kid := by simp [PyDict.get?]
  have hmem : PyVal.str s ∈ [(PyDict.get? kw "x").getD (.str ""), (PyDict.get? kw "y").getD (.str ""), (PyDict.get? kw "d").getD (.str "")] := by
    simp only [List.mem_cons, List.not_mem_nil, or_false] at hm ⊢
    rcases hm with rfl | rfl | rfl <;> simp [hms]
  have hf : (("kid", kid) :: kw).filter (fun kv => !(ecArgs.contains kv.1)) = kw.filter fun kv => !(ecArgs.contains kv.1) := by
    rw [List.filter_cons, if_neg (by simp [ecArgs, keyArgs])]
  unfold ecKeyNew
  simp only [kwGet, PyDict.has, g "self" (by decide), g "crv" (by decide), g "x" (by decide), g "y" (by decide), g "d" (by decide)]
  simp only [argText] at hcrv
  by_cases hself : (PyDict.get? kw "self").isSome = true
  · simp only [hself, if_true]; rfl
  simp only [hself]
  simp only [hcrv, hcurve, and_self, if_true, Bind.bind]
  rcases verifyLongs_text hs hmem with ⟨e, he⟩ | ⟨l, hl⟩
  · rw [he]; rfl
  · rw [hl]
    simp only [Except.bind, Bool.false_eq_true, if_false]
    split
    · rename_i x y d
      simp only [ecDeserialize, keyCommon, kwGet, g "kty" (by decide), g "alg" (by decide), g "use" (by decide), g "x5c" (by decide),
        g "x5t" (by decide), g "x5u" (by decide), gk, hf, Bind.bind, Option.getD_some]
      cases ecCoord x with
      | error e => rfl
      | ok x =>
        cases ecCoord y with
        | error e => rfl
        | ok y =>
          cases curveByVal ((PyDict.get? kw "crv").getD (.str "")) with
          | error e => rfl
          | ok C =>
            simp only [Except.bind]
            generalize (if d.truthy = true then _ else _ : PyM PyVal) = D
            cases D <;> rfl
    · rfl

/-! ### Examples -/

/-- `ECKey(crv="P-256", x=1, y=2, kid=5)` -/
example : ecKeyNew [("crv", .str "P-256"), ("x", .int 1), ("y", .int 2), ("kid", .int 5)] (.val .none) (.val .none) 0 =
    .error .headerError :=
  C123_numbers (kid := .int 5) rfl rfl rfl (.inr (.inl ⟨1, rfl⟩)) (.inr (.inl ⟨2, rfl⟩)) (.inl rfl) rfl
    ⟨rfl, by simp, by simp⟩

/-- `keyrep({"kty": "EC", "crv": "P-256", "x": "AQ", "y": "Ag", "kid": 5})` has the number 5 as `kid`. -/
example : ∃ k, ecKeyNew [("kid", .int 5), ("crv", .str "P-256"), ("x", .str "AQ"), ("y", .str "Ag")] (.val .none) (.val .none) 0 = .ok k ∧
    k.kid = .int 5 := by
  rw [C123_text (m := "x") (s := "AQ") rfl rfl (by simp) rfl (by decide)]
  have h : (ecKeyNew [("crv", .str "P-256"), ("x", .str "AQ"), ("y", .str "Ag")] (.val .none) (.val .none) 0).toOption.isSome = true := by
    decide +kernel
  cases hk : ecKeyNew [("crv", .str "P-256"), ("x", .str "AQ"), ("y", .str "Ag")] (.val .none) (.val .none) 0 with
  | error e => rw [hk] at h; cases h
  | ok k => exact ⟨_, rfl, rfl⟩

end Verif
