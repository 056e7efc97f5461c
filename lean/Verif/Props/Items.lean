import Verif.Props.Leftover
import Verif.Props.JwkSet
/-
C96, C94: the classes that `keyitems2keyreps` makes; keys that `deserialize` leaves alone.
-/

namespace Verif

namespace Spec

/-- The spellings of a key type that are taken for RSA, EC and symmetric keys. -/
inductive ItemType : String → Class → Prop
  | rsa {r s a : Char} : r ∈ ['R', 'r'] → s ∈ ['S', 's', 'ſ'] → a ∈ ['A', 'a'] → ItemType (String.ofList [r, s, a]) .rsa
  | sym {o c t : Char} : o ∈ ['O', 'o'] → c ∈ ['C', 'c'] → t ∈ ['T', 't'] → ItemType (String.ofList [o, c, t]) .sym
  | ec {e c : Char} : e ∈ ['E', 'e'] → c ∈ ['C', 'c'] → ItemType (String.ofList [e, c]) .ec

end Spec

open Spec

theorem upper_iff {c u l : Char} (hu : u.val.toNat + 32 = l.val.toNat) (h1 : 65 ≤ u.val.toNat) (h2 : u.val.toNat ≤ 90) :
    c.toUpper = u ↔ c = u ∨ c = l := by
  have hv : ∀ a b : Char, a = b ↔ a.val.toNat = b.val.toNat := fun a b =>
    ⟨fun h => by rw [h], fun h => Char.ext (UInt32.toNat_inj.mp h)⟩
  have hc : c.toUpper.val.toNat = if 97 ≤ c.val.toNat ∧ c.val.toNat ≤ 122 then c.val.toNat - 32 else c.val.toNat := by
    unfold Char.toUpper
    split
    · rename_i h
      rw [if_pos ⟨h.1, h.2⟩]
      have := h.1
      show (c.val + ('A'.val - 'a'.val)).toNat = _
      rw [UInt32.toNat_add]
      have hle : 97 ≤ c.val.toNat := h.1
      have hle2 : c.val.toNat ≤ 122 := h.2
      have : ('A'.val - 'a'.val).toNat = 4294967264 := by decide
      omega
    · rename_i h
      rw [if_neg (fun hh => h ⟨hh.1, hh.2⟩)]
  rw [hv, hv c u, hv c l, hc]
  split <;> omega

theorem lower_iff {c u l : Char} (hu : u.val.toNat + 32 = l.val.toNat) (h1 : 65 ≤ u.val.toNat) (h2 : u.val.toNat ≤ 90) :
    c.toLower = l ↔ c = u ∨ c = l := by
  have hv : ∀ a b : Char, a = b ↔ a.val.toNat = b.val.toNat := fun a b =>
    ⟨fun h => by rw [h], fun h => Char.ext (UInt32.toNat_inj.mp h)⟩
  have hc : c.toLower.val.toNat = if 65 ≤ c.val.toNat ∧ c.val.toNat ≤ 90 then c.val.toNat + 32 else c.val.toNat := by
    unfold Char.toLower
    split
    · rename_i h
      rw [if_pos ⟨h.1, h.2⟩]
      show (c.val + ('a'.val - 'A'.val)).toNat = _
      rw [UInt32.toNat_add]
      have hle2 : c.val.toNat ≤ 90 := h.2
      have : ('a'.val - 'A'.val).toNat = 32 := by decide
      omega
    · rename_i h
      rw [if_neg (fun hh => h ⟨hh.1, hh.2⟩)]
  rw [hv, hv c u, hv c l, hc]
  split <;> omega

theorem up_R {c : Char} : (if c = 'ſ' then 'S' else c.toUpper) = 'R' ↔ c ∈ ['R', 'r'] := by
  split
  · rename_i h; subst h; decide
  · rw [upper_iff (l := 'r') (by decide) (by decide) (by decide)]; simp

theorem up_S {c : Char} : (if c = 'ſ' then 'S' else c.toUpper) = 'S' ↔ c ∈ ['S', 's', 'ſ'] := by
  split
  · rename_i h; subst h; decide
  · rename_i h; rw [upper_iff (l := 's') (by decide) (by decide) (by decide)]; simp [h]

theorem up_A {c : Char} : (if c = 'ſ' then 'S' else c.toUpper) = 'A' ↔ c ∈ ['A', 'a'] := by
  split
  · rename_i h; subst h; decide
  · rw [upper_iff (l := 'a') (by decide) (by decide) (by decide)]; simp

theorem up_E {c : Char} : (if c = 'ſ' then 'S' else c.toUpper) = 'E' ↔ c ∈ ['E', 'e'] := by
  split
  · rename_i h; subst h; decide
  · rw [upper_iff (l := 'e') (by decide) (by decide) (by decide)]; simp

theorem up_C {c : Char} : (if c = 'ſ' then 'S' else c.toUpper) = 'C' ↔ c ∈ ['C', 'c'] := by
  split
  · rename_i h; subst h; decide
  · rw [upper_iff (l := 'c') (by decide) (by decide) (by decide)]; simp

theorem ofList_of_toList {s : String} {l : List Char} (h : s.toList = l) : s = String.ofList l := by
  rw [← h, String.ofList_toList]

theorem map3 {f : Char → Char} {l : List Char} {x y z : Char} (h : l.map f = [x, y, z]) :
    ∃ a b c, l = [a, b, c] ∧ f a = x ∧ f b = y ∧ f c = z := by
  obtain ⟨a, l, rfl, ha, h⟩ := List.map_eq_cons_iff.mp h
  obtain ⟨b, l, rfl, hb, h⟩ := List.map_eq_cons_iff.mp h
  obtain ⟨c, l, rfl, hc, h⟩ := List.map_eq_cons_iff.mp h
  obtain rfl := List.map_eq_nil_iff.mp h
  exact ⟨a, b, c, rfl, ha, hb, hc⟩

theorem map2 {f : Char → Char} {l : List Char} {x y : Char} (h : l.map f = [x, y]) :
    ∃ a b, l = [a, b] ∧ f a = x ∧ f b = y := by
  obtain ⟨a, l, rfl, ha, h⟩ := List.map_eq_cons_iff.mp h
  obtain ⟨b, l, rfl, hb, h⟩ := List.map_eq_cons_iff.mp h
  obtain rfl := List.map_eq_nil_iff.mp h
  exact ⟨a, b, rfl, ha, hb⟩

theorem upperIs_rsa (t : String) : upperIs t "RSA" = true ↔ ItemType t .rsa := by
  unfold upperIs
  rw [beq_iff_eq, show "RSA".toList = ['R', 'S', 'A'] from rfl]
  constructor
  · intro h
    obtain ⟨r, s, a, hl, h1, h2, h3⟩ := map3 h
    rw [ofList_of_toList hl]
    exact .rsa (up_R.mp h1) (up_S.mp h2) (up_A.mp h3)
  · rintro (⟨hr, hs, ha⟩ | _ | _)
    rw [String.toList_ofList]
    simp only [List.map_cons, List.map_nil, List.cons.injEq, and_true, up_R, up_S, up_A]
    exact ⟨hr, hs, ha⟩

theorem upperIs_ec (t : String) : upperIs t "EC" = true ↔ ItemType t .ec := by
  unfold upperIs
  rw [beq_iff_eq, show "EC".toList = ['E', 'C'] from rfl]
  constructor
  · intro h
    obtain ⟨r, s, hl, h1, h2⟩ := map2 h
    rw [ofList_of_toList hl]
    exact .ec (up_E.mp h1) (up_C.mp h2)
  · rintro (_ | _ | ⟨hr, hs⟩)
    rw [String.toList_ofList]
    simp only [List.map_cons, List.map_nil, List.cons.injEq, and_true, up_E, up_C]
    exact ⟨hr, hs⟩

theorem lower_oct (t : String) : t.toList.map Char.toLower = "oct".toList ↔ ItemType t .sym := by
  have ho : ∀ c : Char, c.toLower = 'o' ↔ c ∈ ['O', 'o'] := fun c => by
    rw [lower_iff (u := 'O') (by decide) (by decide) (by decide)]; simp
  have hc : ∀ c : Char, c.toLower = 'c' ↔ c ∈ ['C', 'c'] := fun c => by
    rw [lower_iff (u := 'C') (by decide) (by decide) (by decide)]; simp
  have ht : ∀ c : Char, c.toLower = 't' ↔ c ∈ ['T', 't'] := fun c => by
    rw [lower_iff (u := 'T') (by decide) (by decide) (by decide)]; simp
  rw [show "oct".toList = ['o', 'c', 't'] from rfl]
  constructor
  · intro h
    obtain ⟨r, s, a, hl, h1, h2, h3⟩ := map3 h
    rw [ofList_of_toList hl]
    exact .sym ((ho _).mp h1) ((hc _).mp h2) ((ht _).mp h3)
  · rintro (_ | ⟨hr, hs, ha⟩ | _)
    rw [String.toList_ofList]
    simp only [List.map_cons, List.map_nil, List.cons.injEq, and_true, ho, hc, ht]
    exact ⟨hr, hs, ha⟩

theorem itemType_unique {t : String} {c d : Class} (h1 : ItemType t c) (h2 : ItemType t d) : c = d := by
  have hl : ∀ {l l' : List Char}, String.ofList l = String.ofList l' → l = l' := fun h => by
    simpa using congrArg String.toList h
  have key : ∀ {x y : String}, ItemType x c → ItemType y d → x = y → c = d := by
    intro x y hx hy he
    cases hx <;> cases hy <;> first | rfl | skip
    all_goals
      have := hl he
      simp at this
    · rename_i m1 _ _ _ _ _ m2 _ _
      rw [this.1] at m1
      simp only [List.mem_cons, List.not_mem_nil, or_false] at m1 m2
      rcases m1 with h | h <;> rcases m2 with h' | h' <;> rw [h] at h' <;> exact absurd h' (by decide)
    · rename_i m1 _ _ _ _ _ m2 _ _
      rw [this.1] at m1
      simp only [List.mem_cons, List.not_mem_nil, or_false] at m1 m2
      rcases m1 with h | h <;> rcases m2 with h' | h' <;> rw [h] at h' <;> exact absurd h' (by decide)
  exact key h1 h2 rfl

theorem itemKey_class {E : Env} {t : String} {key : KObj} {rnd : Nat} {k : Key} (h : itemKey E t key rnd = .ok k) :
    ItemType t (classOf k) ∨ ((∀ c, ¬ ItemType t c) ∧ classOf k = .plain ∧ k.key = key) := by
  unfold itemKey at h
  split at h
  · rename_i hr
    rw [(rsaKeyNew_extra h).2]
    exact .inl ((upperIs_rsa t).mp hr)
  rename_i hr
  split at h
  · rename_i ho
    left
    have : classOf k = .sym := by
      split at h
      · exact (symKeyNew_extra h).2
      · obtain rfl := Except.ok.inj h
        rfl
    rw [this]
    exact (lower_oct t).mp ho
  rename_i ho
  split at h
  · rename_i he
    rw [(ecKeyNew_extra h).2]
    exact .inl ((upperIs_ec t).mp he)
  rename_i he
  right
  unfold plainKeyNew at h
  split at h
  · cases h
  obtain rfl := Except.ok.inj h
  refine ⟨?_, rfl, rfl⟩
  intro c hc
  cases hc with
  | rsa a b d => exact hr ((upperIs_rsa _).mpr (.rsa a b d))
  | sym a b d => exact ho ((lower_oct _).mpr (.sym a b d))
  | ec a b => exact he ((upperIs_ec _).mpr (.ec a b))

/-- **C96.** `keyitems2keyreps`: the keys come in the order of the items; the class of each is decided by the key type in any letter
case; an unknown type gives a bare `Key` around the object. -/
theorem C96_items (E : Env) (items : List (String × List (KObj × Nat))) (ks : List Key) (h : keyitems2keyreps E items = .ok ks) :
    List.Forall₂ (fun (i : String × KObj) k => ItemType i.1 (classOf k) ∨ ((∀ c, ¬ ItemType i.1 c) ∧ classOf k = .plain ∧ k.key = i.2))
      (items.flatMap fun it => it.2.map fun kr => (it.1, kr.1)) ks := by
  unfold keyitems2keyreps at h
  simp only [Bind.bind] at h
  obtain ⟨ls, h1, h2⟩ := bind_ok_iff.mp h
  obtain rfl := Except.ok.inj h2
  have hf := mapM_forall₂.mp h1
  clear h h1 h2
  induction hf with
  | nil => exact .nil
  | cons h3 _ ih =>
    rw [List.flatMap_cons, List.flatten_cons]
    refine List.rel_append ?_ ih
    have h5 := mapM_forall₂.mp h3
    rw [List.forall₂_map_left_iff]
    exact h5.imp fun _ _ hk => itemKey_class hk

/-- **C94.** `deserialize` leaves a bare `Key` alone, and of a symmetric key changes only `key`: the bytes that `k` encodes. -/
theorem C94_deserialize (E : Env) (k k' : Key) (h : k.deserialize E = .ok k') :
    (classOf k = .plain → k' = k) ∧
    ∀ v, k.mat = .sym v → v.truthy = true ∧ ∃ b raw, pyBytes v = .ok b ∧ b64d b = .ok raw ∧ k' = { k with key := .val (.bytes raw) } := by
  constructor
  · intro hc
    cases hm : k.mat <;> simp [classOf, hm] at hc
    simp only [Key.deserialize, hm] at h
    exact (Except.ok.inj h).symm
  · intro v hm
    simp only [Key.deserialize, hm] at h
    unfold symDeserialize at h
    split at h
    · rename_i hv
      refine ⟨hv, ?_⟩
      simp only [Bind.bind] at h
      cases hb : pyBytes v with
      | error e => rw [hb] at h; cases h
      | ok b =>
        rw [hb] at h
        simp only [Except.bind] at h
        cases hr : b64d b with
        | error e => rw [hr] at h; cases h
        | ok raw =>
          rw [hr] at h
          simp only [Except.map, Except.ok.injEq] at h
          exact ⟨b, raw, rfl, hr, by rw [hm]; exact h.symm⟩
    · cases h

/-- **C94.** A bare `Key` can always be deserialized. -/
theorem C94_plain (E : Env) (k : Key) (h : classOf k = .plain) : k.deserialize E = .ok k := by
  cases hm : k.mat <;> simp [classOf, hm] at h
  simp only [Key.deserialize, hm]

/-- Three spellings, and a type nobody knows. -/
example (r : RsaKey) (ks : List Key) (h : keyitems2keyreps toyEnv [("rsa", [(.rsa r, 0)]), ("Oct", [(.val (.str "s"), 0)]),
      ("x", [(.val .none, 0)])] = .ok ks) : ks.map classOf = [.rsa, .sym, .plain] := by
  have hx : ∀ c, ¬ ItemType "x" c := by
    intro c hc
    have : ∀ {s : String}, ItemType s c → s.length ≠ 1 := by
      rintro s (_ | _ | _) <;> simp
    exact this hc (by decide)
  have h1 : ItemType "rsa" .rsa := .rsa (r := 'r') (s := 's') (a := 'a') (by simp) (by simp) (by simp)
  have h2 : ItemType "Oct" .sym := .sym (o := 'O') (c := 'c') (t := 't') (by simp) (by simp) (by simp)
  have := C96_items _ _ _ h
  simp only [List.flatMap_cons, List.flatMap_nil, List.map_cons, List.map_nil, List.cons_append, List.nil_append,
    List.forall₂_cons_left_iff, List.forall₂_nil_left_iff] at this
  obtain ⟨k1, _, e1, ⟨k2, _, e2, ⟨k3, _, e3, rfl, rfl⟩, rfl⟩, rfl⟩ := this
  simp only [List.map_cons, List.map_nil]
  rw [show classOf k1 = .rsa from ?_, show classOf k2 = .sym from ?_, show classOf k3 = .plain from ?_]
  · rcases e3 with e | e
    · exact absurd e (hx _)
    · exact e.2.1
  · rcases e2 with e | e
    · exact itemType_unique e h2
    · exact absurd h2 (e.1 _)
  · rcases e1 with e | e
    · exact itemType_unique e h1
    · exact absurd h1 (e.1 _)

end Verif
