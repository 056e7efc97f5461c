import Verif.Props.JwkMore
/-
C33: the key container.
-/

namespace Verif
open Spec

/-- One call on a `KEYS` object. -/
def Keys.step (E : Env) (ks : Keys) : KeysOp → PyM Unit × Keys
  | .append k => (.ok (), ks.append k)
  | .add d => ks.add E d
  | .wrapAdd key use kid rnd => ks.wrapAdd E key use kid rnd
  | .loadDict v => ks.loadDict E v
  | .loadJwks s => ks.loadJwks E s

/-- Any program of such calls that goes on after exceptions: the outcomes and the final container. -/
def Keys.run (E : Env) : Keys → List KeysOp → List (PyM Unit) × Keys
  | ks, [] => ([], ks)
  | ks, op :: ops =>
    let (r, ks') := ks.step E op
    let (rs, ks'') := Keys.run E ks' ops
    (r :: rs, ks'')

/-- The outcome as an exception, if any. -/
def excOf : PyM Unit → Option Exc
  | .ok _ => none
  | .error e => some e

theorem loads_go (E : Env) (l : List PyVal) (ks : Keys) :
    ∃ added e, Loads E l added e ∧ (Keys.loadDict.go E ks l).2 = ks ++ added ∧
      excOf (Keys.loadDict.go E ks l).1 = e := by
  induction l generalizing ks with
  | nil => exact ⟨[], none, .nil, by simp [Keys.loadDict.go], rfl⟩
  | cons v l ih =>
    have other : (∀ d, v ≠ .dict d) → Keys.loadDict.go E ks (v :: l) = (.error .attributeError, ks) → 
        ∃ added e, Loads E (v :: l) added e ∧ (Keys.loadDict.go E ks (v :: l)).2 = ks ++ added ∧
        excOf (Keys.loadDict.go E ks (v :: l)).1 = e := by
      intro h1 h2
      exact ⟨[], _, .other h1, by simp [h2], by rw [h2]; rfl⟩
    cases v with
    | dict d =>
      cases hk : keyrep E d with
      | error e => exact ⟨[], some e, .bad hk, by simp [Keys.loadDict.go, hk], by
          simp [Keys.loadDict.go, hk, excOf]⟩
      | ok k =>
        obtain ⟨added, e, h1, h2, h3⟩ := ih (ks ++ [k])
        refine ⟨k :: added, e, .cons hk h1, ?_, ?_⟩
        · simp only [Keys.loadDict.go, hk, h2, List.append_assoc, List.singleton_append]
        · simp only [Keys.loadDict.go, hk, h3]
    | _ => exact other (by simp) rfl

theorem adds_step (E : Env) (ks : Keys) (op : KeysOp) :
    ∃ added e, Adds E op added e ∧ (ks.step E op).2 = ks ++ added ∧ excOf (ks.step E op).1 = e := by
  have hload : ∀ v, ∃ added e, Adds E (.loadDict v) added e ∧ (ks.loadDict E v).2 = ks ++ added ∧
      excOf (ks.loadDict E v).1 = e := by
    intro v
    unfold Keys.loadDict
    cases hg : v.getItem "keys" with
    | error e => exact ⟨[], _, .loadErr hg, by simp, rfl⟩
    | ok w =>
      cases w with
      | list l =>
        obtain ⟨added, e, h1, h2, h3⟩ := loads_go E l ks
        exact ⟨added, e, .load hg h1, h2, h3⟩
      | dict d => refine ⟨[], _, .loadOther hg (by simp), ?_, rfl⟩; simp only; split <;> simp
      | str s => refine ⟨[], _, .loadOther hg (by simp), ?_, rfl⟩; simp only; split <;> simp
      | bytes s => refine ⟨[], _, .loadOther hg (by simp), ?_, rfl⟩; simp only; split <;> simp
      | _ => exact ⟨[], _, .loadOther hg (by simp), by simp, rfl⟩
  cases op with
  | append k => exact ⟨[k], none, .append, rfl, rfl⟩
  | add d =>
    simp only [Keys.step, Keys.add]
    cases hk : keyrep E d with
    | ok k => exact ⟨[k], none, .add hk, rfl, rfl⟩
    | error e => exact ⟨[], _, .addBad hk, by simp, rfl⟩
  | wrapAdd key use kid rnd =>
    simp only [Keys.step, Keys.wrapAdd]
    cases hk : jwkWrap E key use kid rnd with
    | ok k => exact ⟨[k], none, .wrap hk, rfl, rfl⟩
    | error e => exact ⟨[], _, .wrapBad hk, by simp, rfl⟩
  | loadDict v => exact hload v
  | loadJwks s =>
    simp only [Keys.step, Keys.loadJwks]
    cases hj : jsonLoads s with
    | error e => exact ⟨[], _, .jwksBad hj, by simp, rfl⟩
    | ok v =>
      obtain ⟨added, e, h1, h2, h3⟩ := hload v
      exact ⟨added, e, .jwks hj h1, h2, h3⟩

/-- After any sequence of calls, whatever they raise, the container holds what it held before followed
by what each call added, in the order of the calls. -/
theorem C33_history (E : Env) (ks : Keys) (ops : List KeysOp) :
    ∃ adds : List (List Key × Option Exc),
      List.Forall₂ (fun op a => Adds E op a.1 a.2) ops adds ∧
      (ks.run E ops).2 = ks ++ (adds.map Prod.fst).flatten ∧
      (ks.run E ops).1.map excOf = adds.map Prod.snd := by
  induction ops generalizing ks with
  | nil => exact ⟨[], .nil, by simp [Keys.run], by simp [Keys.run]⟩
  | cons op ops ih =>
    obtain ⟨added, e, h1, h2, h3⟩ := adds_step E ks op
    obtain ⟨adds, a1, a2, a3⟩ := ih (ks.step E op).2
    refine ⟨(added, e) :: adds, .cons h1 a1, ?_, ?_⟩
    · simp only [Keys.run, List.map_cons, List.flatten_cons]
      rw [a2, h2, List.append_assoc]
    · simp only [Keys.run, List.map_cons, h3, a3]

/-- `by_kid` and `kids` are the obvious filters. -/
theorem C33_by_kid (ks : Keys) (kid : String) :
    (∀ k, k ∈ ks.byKid (.str kid) ↔ k ∈ ks ∧ k.kid = .str kid) ∧
    (ks.byKid (.str kid)).Sublist ks ∧ (ks.byKid (.str kid)).length = ks.countP (·.kid = .str kid) := by
  have hp : ∀ k : Key, (PyVal.str kid).pyEq k.kid = decide (k.kid = .str kid) := by
    intro k
    rw [Bool.eq_iff_iff, decide_eq_true_iff]
    cases h : k.kid <;> simp [PyVal.pyEq]
    exact eq_comm
  refine ⟨?_, List.filter_sublist, ?_⟩
  · intro k
    simp [Keys.byKid, List.mem_filter, hp]
  · simp only [Keys.byKid, hp, List.countP_eq_length_filter]

theorem C33_kids (ks : Keys) : ks.kids = (ks.map Key.kid).filter PyVal.truthy := by
  simp only [Keys.kids, List.filter_map]
  rfl

theorem setAdd_fold (l : List PyVal) (acc : List PyVal) (hl : ∀ v ∈ l, v.pyEq v = true)
    (ha : acc.Pairwise fun a b => a.pyEq b = false) :
    (l.foldl setAdd acc).Pairwise (fun a b => a.pyEq b = false) ∧
      (∀ v ∈ l.foldl setAdd acc, v ∈ acc ∨ v ∈ l) ∧ (∀ v ∈ acc, v ∈ l.foldl setAdd acc) ∧
      ∀ v ∈ l, ∃ t ∈ l.foldl setAdd acc, t.pyEq v = true := by
  induction l generalizing acc with
  | nil => exact ⟨ha, fun v hv => .inl hv, fun v hv => hv, by simp⟩
  | cons x l ih =>
    have hx : x.pyEq x = true := hl x (by simp)
    have hs : (setAdd acc x).Pairwise (fun a b => a.pyEq b = false) ∧ (∀ v ∈ setAdd acc x, v ∈ acc ∨ v = x) ∧
        (∀ v ∈ acc, v ∈ setAdd acc x) ∧ ∃ t ∈ setAdd acc x, t.pyEq x = true := by
      unfold setAdd
      split
      · rename_i h
        obtain ⟨t, ht, hx'⟩ := List.any_eq_true.mp h
        exact ⟨ha, fun v hv => .inl hv, fun v hv => hv, t, ht, hx'⟩
      · rename_i h
        refine ⟨List.pairwise_append.mpr ⟨ha, by simp, ?_⟩, by simp, fun v hv => by simp [hv], x, by simp, hx⟩
        intro a haa b hb
        cases List.mem_singleton.mp hb
        simp only [List.any_eq_true, not_exists, not_and, Bool.not_eq_true] at h
        exact h a haa
    obtain ⟨h1, h2, h3, h4⟩ := ih (setAdd acc x) (fun v hv => hl v (by simp [hv])) hs.1
    refine ⟨h1, fun v hv => ?_, fun v hv => h3 v (hs.2.2.1 v hv), fun v hv => ?_⟩
    · rcases h2 v hv with h | h
      · rcases hs.2.1 v h with h | rfl
        · exact .inl h
        · exact .inr (by simp)
      · exact .inr (by simp [h])
    · rcases List.mem_cons.mp hv with rfl | h
      · obtain ⟨t, ht, he⟩ := hs.2.2.2
        exact ⟨t, h3 t ht, he⟩
      · exact h4 v h

/-- `key_types()`: each type once (as `==` tells types apart), nothing else; the call fails when a type is
a list or a dictionary. -/
theorem C33_key_types (ks : Keys) :
    ((∃ k ∈ ks, (∃ l, k.kty = .list l) ∨ ∃ d, k.kty = .dict d) → ks.keyTypes = .error .typeError) ∧
    ((∀ k ∈ ks, (∀ l, k.kty ≠ .list l) ∧ ∀ d, k.kty ≠ .dict d) → ∃ ts, ks.keyTypes = .ok ts ∧
      ts.Pairwise (fun a b => a.pyEq b = false) ∧ (∀ t ∈ ts, ∃ k ∈ ks, k.kty = t) ∧
      ∀ k ∈ ks, ∃ t ∈ ts, t.pyEq k.kty = true) := by
  constructor
  · rintro ⟨k, hk, h⟩
    have : ¬ ks.all (fun k => hashable k.kty) = true := by
      intro ha
      have := List.all_eq_true.mp ha k hk
      rcases h with ⟨l, h⟩ | ⟨d, h⟩ <;> simp [h, hashable] at this
    rw [Keys.keyTypes, if_neg this]
  · intro h
    have ha : ks.all (fun k => hashable k.kty) = true := by
      refine List.all_eq_true.mpr fun k hk => ?_
      cases hv : k.kty with
      | list l => exact absurd hv ((h k hk).1 l)
      | dict d => exact absurd hv ((h k hk).2 d)
      | _ => rfl
    obtain ⟨h1, h2, -, h4⟩ := setAdd_fold (ks.map Key.kty) [] (by
      intro v hv
      obtain ⟨k, hk, rfl⟩ := List.mem_map.mp hv
      cases hv : k.kty with
      | list l => exact absurd hv ((h k hk).1 l)
      | dict d => exact absurd hv ((h k hk).2 d)
      | _ => simp [PyVal.pyEq]) .nil
    refine ⟨_, by rw [Keys.keyTypes, if_pos ha], h1, fun t ht => ?_, fun k hk => h4 _ (List.mem_map_of_mem hk)⟩
    rcases h2 t ht with h | h
    · cases h
    · obtain ⟨k, hk, rfl⟩ := List.mem_map.mp h
      exact ⟨k, hk, rfl⟩

/-- When all types are text: exactly the types, without repetition. -/
theorem C33_key_types_text (ks : Keys) (h : ∀ k ∈ ks, ∃ s, k.kty = .str s) :
    ∃ ts, ks.keyTypes = .ok ts ∧ ts.Nodup ∧ ∀ t, t ∈ ts ↔ ∃ k ∈ ks, k.kty = t := by
  obtain ⟨ts, h1, h2, h3, h4⟩ := (C33_key_types ks).2 fun k hk => by
    obtain ⟨s, hs⟩ := h k hk
    simp [hs]
  have hstr : ∀ t ∈ ts, ∃ s, t = .str s := fun t ht => by
    obtain ⟨k, hk, rfl⟩ := h3 t ht
    exact h k hk
  refine ⟨ts, h1, ?_, fun t => ⟨h3 t, ?_⟩⟩
  · refine List.Pairwise.imp_of_mem (fun {a b} ha _ hab => ?_) h2
    rintro rfl
    obtain ⟨s, rfl⟩ := hstr a ha
    simp [PyVal.pyEq] at hab
  · rintro ⟨k, hk, rfl⟩
    obtain ⟨t, ht, he⟩ := h4 k hk
    obtain ⟨s, hs⟩ := h k hk
    rw [hs, pyEq_str_iff] at he
    rw [hs, ← he]
    exact ht

/-- `keys[kty]`: when all types are text, the keys whose type agrees up to case, in order. -/
theorem C33_getitem (ks : Keys) (item : String) (h : ∀ k ∈ ks, ∃ s, k.kty = .str s) :
    ks.getItem item = .ok (ks.filter fun k => match k.kty with
      | .str s => pyLower s = pyLower item
      | _ => false) := by
  have : ks.mapM (fun k => do let t ← ktyLower k; Except.ok (t, k)) =
      (Except.ok (ks.map fun k => ((match k.kty with | .str s => .str (pyLower s) | v => v), k)) : PyM _) := by
    induction ks with
    | nil => rfl
    | cons k ks ih =>
      obtain ⟨s, hs⟩ := h k (by simp)
      rw [List.mapM_cons, ih (fun k hk => h k (List.mem_cons_of_mem _ hk))]
      simp [ktyLower, hs, PyVal.lower, Bind.bind, Except.bind, Pure.pure, Except.pure]
  unfold Keys.getItem
  rw [this]
  simp only [Bind.bind, Except.bind, Except.ok.injEq]
  clear this
  induction ks with
  | nil => rfl
  | cons k ks ih =>
    obtain ⟨s, hs⟩ := h k (by simp)
    have ih := ih (fun k hk => h k (List.mem_cons_of_mem _ hk))
    by_cases hc : pyLower s = pyLower item
    · simpa [List.filter_cons, hs, hc] using ih
    · simpa [List.filter_cons, hs, hc] using ih

/-- A dictionary of buckets that partitions the keys by `f`. -/
structure Partition (f : Key → PyVal) (ks : List Key) (d : List (PyVal × List Key)) : Prop where
  nodup : (d.map Prod.fst).Nodup
  bucket : ∀ t l, (t, l) ∈ d → l = ks.filter (fun k => f k = t) ∧ l ≠ []
  all : ∀ k ∈ ks, ∃ l, (f k, l) ∈ d

theorem fileUnder_keys (d : List (PyVal × List Key)) (t : PyVal) (k : Key) :
    (fileUnder d t k).map Prod.fst = if t ∈ d.map Prod.fst then d.map Prod.fst
      else d.map Prod.fst ++ [t] := by
  induction d with
  | nil => simp [fileUnder]
  | cons a d ih =>
    obtain ⟨t', l⟩ := a
    simp only [fileUnder]
    by_cases h : t' = t
    · simp [h]
    · rw [if_neg h, List.map_cons, ih]
      have h' : t ≠ t' := fun e => h e.symm
      by_cases hm : t ∈ d.map Prod.fst
      · simp [hm]
      · simp [hm, h']

theorem fileUnder_mem (d : List (PyVal × List Key)) (t : PyVal) (k : Key)
    (hn : (d.map Prod.fst).Nodup) (s : PyVal) (l : List Key) :
    (s, l) ∈ fileUnder d t k ↔ (s ≠ t ∧ (s, l) ∈ d) ∨
      (s = t ∧ ((∃ l0, (t, l0) ∈ d ∧ l = l0 ++ [k]) ∨ (t ∉ d.map Prod.fst ∧ l = [k]))) := by
  induction d with
  | nil => simp [fileUnder]
  | cons a d ih =>
    obtain ⟨t', l'⟩ := a
    simp only [List.map_cons, List.nodup_cons] at hn
    simp only [fileUnder]
    by_cases h : t' = t
    · subst h
      rw [if_pos rfl]
      simp only [List.mem_cons, Prod.mk.injEq, List.map_cons, true_or, not_true, false_and, or_false]
      constructor
      · rintro (⟨rfl, rfl⟩ | hm)
        · exact .inr ⟨rfl, l', .inl ⟨trivial, rfl⟩, rfl⟩
        · by_cases hs : s = t'
          · subst hs
            exact absurd (List.mem_map_of_mem (f := Prod.fst) hm) hn.1
          · exact .inl ⟨hs, .inr hm⟩
      · rintro (⟨hs, ⟨rfl, -⟩ | hm⟩ | ⟨rfl, l0, ⟨-, rfl⟩ | hm, rfl⟩)
        · exact absurd rfl hs
        · exact .inr hm
        · exact .inl ⟨rfl, rfl⟩
        · exact absurd (List.mem_map_of_mem (f := Prod.fst) hm) hn.1
    · rw [if_neg h]
      simp only [List.mem_cons, Prod.mk.injEq, List.map_cons, ih hn.2]
      have h' : t ≠ t' := fun e => h e.symm
      constructor
      · rintro (⟨rfl, rfl⟩ | ⟨hs, hm⟩ | ⟨rfl, ⟨l0, hm, rfl⟩ | ⟨hm, rfl⟩⟩)
        · exact .inl ⟨h, .inl ⟨rfl, rfl⟩⟩
        · exact .inl ⟨hs, .inr hm⟩
        · exact .inr ⟨rfl, .inl ⟨l0, .inr hm, rfl⟩⟩
        · exact .inr ⟨rfl, .inr ⟨by simp [hm, h'], rfl⟩⟩
      · rintro (⟨hs, ⟨rfl, rfl⟩ | hm⟩ | ⟨rfl, ⟨l0, ⟨e, -⟩ | hm, rfl⟩ | ⟨hm, rfl⟩⟩)
        · exact .inl ⟨rfl, rfl⟩
        · exact .inr (.inl ⟨hs, hm⟩)
        · exact absurd e h'
        · exact .inr (.inr ⟨rfl, .inl ⟨l0, hm, rfl⟩⟩)
        · exact .inr (.inr ⟨rfl, .inr ⟨fun h => hm (.inr h), rfl⟩⟩)

theorem fileUnder_partition {f : Key → PyVal} {ks : List Key} {d : List (PyVal × List Key)} {k : Key}
    (h : Partition f ks d) : Partition f (ks ++ [k]) (fileUnder d (f k) k) := by
  refine ⟨?_, ?_, ?_⟩
  · rw [fileUnder_keys]
    split
    · exact h.nodup
    · rename_i hm
      rw [List.nodup_append]
      exact ⟨h.nodup, by simp, by
        intro a ha b hb e
        rw [List.mem_singleton] at hb
        subst hb e
        exact hm ha⟩
  · intro t l hm
    rw [fileUnder_mem _ _ _ h.nodup] at hm
    rw [List.filter_append]
    rcases hm with ⟨hs, hm⟩ | ⟨rfl, ⟨l0, hm, rfl⟩ | ⟨hm, rfl⟩⟩
    · obtain ⟨h1, h2⟩ := h.bucket t l hm
      have hs' : f k ≠ t := fun e => hs e.symm
      simp [hs', h2, ← h1]
    · obtain ⟨h1, h2⟩ := h.bucket _ l0 hm
      simp [← h1]
    · have : ks.filter (fun x => f x = f k) = [] := by
        rw [List.filter_eq_nil_iff]
        intro x hx
        rw [decide_eq_true_iff]
        intro e
        obtain ⟨l, hl⟩ := h.all x hx
        rw [e] at hl
        exact hm (List.mem_map_of_mem (f := Prod.fst) hl)
      simp [this]
  · intro x hx
    simp only [fileUnder_mem _ _ _ h.nodup]
    rw [List.mem_append, List.mem_singleton] at hx
    by_cases he : f x = f k
    · by_cases hm : f k ∈ d.map Prod.fst
      · obtain ⟨⟨t, l0⟩, h0, h1⟩ := List.mem_map.mp hm
        exact ⟨_, .inr ⟨he, .inl ⟨l0, h1 ▸ h0, rfl⟩⟩⟩
      · exact ⟨_, .inr ⟨he, .inr ⟨hm, rfl⟩⟩⟩
    · rcases hx with hx | rfl
      · obtain ⟨l, hl⟩ := h.all x hx
        exact ⟨l, .inl ⟨he, hl⟩⟩
      · exact absurd rfl he

/-- The type under which a key is filed. -/
def filedUnder (k : Key) : PyVal :=
  match k.kty with
  | .str s => .str (canonKty s)
  | v => v

theorem asDictKty_canon (s : String) : asDictKty (.str s) = .ok (.str (canonKty s)) := by
  have h1 : pyLower "oct" = "oct" := by decide +kernel
  unfold asDictKty canonKty
  simp only [PyVal.str.injEq, List.mem_cons, List.not_mem_nil, or_false, PyVal.lower]
  by_cases a : s = "RSA"
  · simp [a]
  by_cases b : s = "EC"
  · simp [b]
  by_cases c : s = "oct"
  · simp [c, h1]
  by_cases d : s = "rsa"
  · simp [d]
  by_cases e : s = "ec"
  · simp [e]
  simp [a, b, c, d, e]

/-- `as_dict` partitions the keys by type, keeping the order within each type. -/
theorem C33_as_dict (ks : Keys) (h : ∀ k ∈ ks, ∃ s, k.kty = .str s) :
    ∃ d, ks.asDict = .ok d ∧ Partition filedUnder ks d := by
  have gen : ∀ (l done : List Key) (d0 : List (PyVal × List Key)), (∀ k ∈ l, ∃ s, k.kty = .str s) →
      Partition filedUnder done d0 →
      ∃ d, l.foldlM (fun d k => do
          let t ← asDictKty k.kty
          Except.ok (fileUnder d t k)) d0 = (.ok d : PyM _) ∧
        Partition filedUnder (done ++ l) d := by
    intro l
    induction l with
    | nil => intro done d0 _ hp; exact ⟨d0, rfl, by simpa using hp⟩
    | cons k l ih =>
      intro done d0 hl hp
      obtain ⟨s, hs⟩ := hl k (by simp)
      have hf : filedUnder k = .str (canonKty s) := by simp [filedUnder, hs]
      have hp' := fileUnder_partition (k := k) hp
      rw [hf] at hp'
      obtain ⟨d, h1, h2⟩ := ih (done ++ [k]) _ (fun k hk => hl k (List.mem_cons_of_mem _ hk)) hp'
      refine ⟨d, ?_, by simpa using h2⟩
      rw [List.foldlM_cons, hs, asDictKty_canon]
      exact h1
  obtain ⟨d, h1, h2⟩ := gen ks [] [] h ⟨by simp, by simp, by simp⟩
  exact ⟨d, h1, by simpa using h2⟩

example : Keys.asDict [exRsa, exEc, { exRsa with kty := .str "rsa" }, exSym] =
    .ok [(.str "RSA", [exRsa, { exRsa with kty := .str "rsa" }]), (.str "EC", [exEc]),
      (.str "oct", [exSym])] := by decide +kernel

example : Keys.keyTypes [exRsa, exEc, exRsa, exSym] = .ok [.str "RSA", .str "EC", .str "oct"] ∧
    Keys.keyTypes [exRsa, { exEc with kty := .list [] }] = .error .typeError :=
  ⟨by decide +kernel, (C33_key_types _).1 ⟨_, by simp; exact .inr rfl, .inl ⟨_, rfl⟩⟩⟩

example : (Keys.run toyEnv [] [.append exRsa, .loadJwks "{", .append exSym, .add [], .append exRsa]).2 =
    [exRsa, exSym, exRsa] := by decide +kernel

end Verif
