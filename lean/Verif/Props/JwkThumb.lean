import Verif.Props.JwkHash
import Verif.Props.JwkMore
import Verif.Model.JwkNew
/-
C95: `thumbprint` with an explicit list of members and hash function, `get_hash`, `add_kid`.
-/

namespace Verif
open Spec

/-- The text of the JSON object with the given members, in the order given. -/
def Spec.objectText (l : List (String × String)) : String :=
  "{" ++ ",".intercalate (l.map fun p => "\"" ++ p.1 ++ "\":" ++ p.2) ++ "}"

/-- `s` is what is hashed for the members `names` of the serialization `ser`: the object with exactly
those of the names that occur in `ser`, in ascending order, with the values of `ser`. -/
def Spec.ThumbText (ser : PyDict) (names : List String) (s : String) : Prop :=
  ∃ l : List (String × String), s = objectText l ∧ (l.map Prod.fst).Pairwise (· ≤ ·) ∧
    (l.map Prod.fst).Perm (names.filter fun n => (PyDict.get? ser n).isSome) ∧
    ∀ p ∈ l, ∃ v, PyDict.get? ser p.1 = some v ∧ jsonDumps v = .ok p.2

theorem sortNames_perm (l : List String) : (sortNames l).Perm l := List.mergeSort_perm _ _

theorem sortNames_sorted (l : List String) : (sortNames l).Pairwise (· ≤ ·) := by
  have := List.pairwise_mergeSort (le := fun a b : String => decide (a ≤ b))
    (fun a b c h1 h2 => by simp only [decide_eq_true_eq] at *; exact String.le_trans h1 h2)
    (fun a b => by simpa using String.le_total a b) l
  unfold sortNames
  simpa using this

theorem sorted_unique {l l' : List String} (h : l.Perm l') (h1 : l.Pairwise (· ≤ ·))
    (h2 : l'.Pairwise (· ≤ ·)) : l = l' :=
  h.eq_of_pairwise (fun _ _ _ _ h1 h2 => String.le_antisymm h1 h2) h1 h2

theorem joinComma_eq : ∀ l : List String, joinComma l = ",".intercalate l
  | [] => rfl
  | [s] => by simp [joinComma]
  | s :: t :: l => by
    rw [joinComma, joinComma_eq (t :: l)]
    · simp [String.append_assoc]
    · simp

theorem mapM_tpElem {ser : PyDict} : ∀ {names : List String} {l : List (Option String)},
    names.mapM (tpElem ser) = .ok l →
    ∃ q : List (String × String), l.filterMap id = q.map (fun p => "\"" ++ p.1 ++ "\":" ++ p.2) ∧
      q.map Prod.fst = names.filter (fun n => (PyDict.get? ser n).isSome) ∧
      ∀ p ∈ q, ∃ v, PyDict.get? ser p.1 = some v ∧ jsonDumps v = .ok p.2 := by
  intro names
  induction names with
  | nil =>
    intro l h
    simp only [List.mapM_nil, pure, Except.pure, Except.ok.injEq] at h
    subst h
    exact ⟨[], rfl, rfl, by simp⟩
  | cons n names ih =>
    intro l h
    rw [List.mapM_cons] at h
    simp only [Bind.bind] at h
    obtain ⟨o, h1, h⟩ := bind_ok_iff.mp h
    obtain ⟨l', h2, h⟩ := bind_ok_iff.mp h
    simp only [pure, Except.pure, Except.ok.injEq] at h
    subst h
    obtain ⟨q, q1, q2, q3⟩ := ih h2
    unfold tpElem at h1
    cases hg : PyDict.get? ser n with
    | none =>
      rw [hg] at h1
      simp only [Except.ok.injEq] at h1
      subst h1
      refine ⟨q, by simpa using q1, ?_, q3⟩
      rw [q2, List.filter_cons_of_neg (by simp [hg])]
    | some v =>
      rw [hg] at h1
      simp only [Bind.bind] at h1
      obtain ⟨s, h3, h4⟩ := bind_ok_iff.mp h1
      simp only [Except.ok.injEq] at h4
      subst h4
      refine ⟨(n, s) :: q, by simpa using q1, ?_, ?_⟩
      · rw [List.map_cons, q2, List.filter_cons_of_pos (by simp [hg])]
      · intro p hp
        rcases List.mem_cons.mp hp with rfl | hp
        · exact ⟨v, hg, h3⟩
        · exact q3 p hp

/-- What is hashed for an explicit list of members. -/
theorem C95_text (k : Key) (ser : PyDict) (names : List String) (s : String)
    (hs : k.serializeDflt = .ok (.dict ser)) (h : k.thumbInputOf names = .ok s) :
    ThumbText ser names s := by
  unfold Key.thumbInputOf at h
  simp only [hs, Bind.bind, Except.bind] at h
  generalize hm : (sortNames names).mapM (tpElem ser) = x at h
  cases x with
  | error e => simp at h
  | ok l =>
    simp only [Except.ok.injEq] at h
    obtain ⟨q, q1, q2, q3⟩ := mapM_tpElem hm
    refine ⟨q, ?_, ?_, ?_, q3⟩
    · rw [← h, joinComma_eq, q1, objectText]
    · rw [q2]
      exact (sortNames_sorted names).filter _
    · rw [q2]
      exact (sortNames_perm names).filter _

/-- That description leaves one text. -/
theorem C95_text_unique (ser : PyDict) (names : List String) (s s' : String)
    (h : ThumbText ser names s) (h' : ThumbText ser names s') : s = s' := by
  obtain ⟨l, rfl, h1, h2, h3⟩ := h
  obtain ⟨l', rfl, h1', h2', h3'⟩ := h'
  have hf : l.map Prod.fst = l'.map Prod.fst := sorted_unique (h2.trans h2'.symm) h1 h1'
  suffices l = l' by rw [this]
  clear h1 h2 h1' h2'
  induction l generalizing l' with
  | nil =>
    cases l' with
    | nil => rfl
    | cons a l' => simp at hf
  | cons a l ih =>
    cases l' with
    | nil => simp at hf
    | cons a' l' =>
      simp only [List.map_cons, List.cons.injEq] at hf
      have := ih (fun p hp => h3 p (List.mem_cons_of_mem _ hp)) l'
        (fun p hp => h3' p (List.mem_cons_of_mem _ hp)) hf.2
      subst this
      obtain ⟨v, e1, e2⟩ := h3 a (List.mem_cons_self ..)
      obtain ⟨v', e1', e2'⟩ := h3' a' (List.mem_cons_self ..)
      rw [← hf.1, e1] at e1'
      obtain rfl : v = v' := by simpa using e1'
      rw [e2] at e2'
      have : a.2 = a'.2 := by simpa using e2'
      rw [Prod.ext hf.1 this]

/-- The order of the list does not matter; the caller's list is sorted in place. -/
theorem C95_order (E : Env) (k : Key) (hashFn : String) (names names' : List String)
    (h : names.Perm names') : k.thumbprintOf E hashFn names = k.thumbprintOf E hashFn names' ∧
      (k.thumbprintOf E hashFn names).2.Perm names ∧
      (k.thumbprintOf E hashFn names).2.Pairwise (· ≤ ·) := by
  have e : sortNames names = sortNames names' :=
    sorted_unique (((sortNames_perm names).trans h).trans (sortNames_perm names').symm)
      (sortNames_sorted names) (sortNames_sorted names')
  have e2 : names.isEmpty = names'.isEmpty := by
    rw [Bool.eq_iff_iff, List.isEmpty_iff, List.isEmpty_iff]
    exact ⟨fun h' => by subst h'; exact List.nil_perm.mp h, fun h' => by subst h'; exact h.eq_nil⟩
  refine ⟨?_, sortNames_perm names, sortNames_sorted names⟩
  unfold Key.thumbprintOf Key.thumbInputOf
  rw [e, e2]

/-- The members each class requires (`required` in `jwk.py`). -/
def Spec.requiredMembers : Class → List String
  | .plain => ["kty"]
  | .rsa => ["kty", "n", "e"]
  | .ec => ["crv", "key", "x", "y"]
  | .sym => ["kty", "k"]

/-- Without a list, the members are the required ones of the class. -/
theorem C95_default (E : Env) (k : Key) (hashFn : String) (names : List String)
    (h : names.Perm (requiredMembers (classOf k))) :
    (k.thumbprintOf E hashFn names).1 = k.thumbprint E hashFn := by
  have hp : names.Perm k.required := by
    refine h.trans ?_
    unfold classOf Key.required requiredMembers
    cases k.mat <;> simp only <;> decide
  have hsorted : k.required.Pairwise (· ≤ ·) := by
    unfold Key.required
    cases k.mat <;> simp only <;> decide
  have e : sortNames names = k.required :=
    sorted_unique ((sortNames_perm names).trans hp) (sortNames_sorted names) hsorted
  have hne : names.isEmpty = false := by
    cases names with
    | nil =>
      have := List.nil_perm.mp hp
      unfold Key.required at this
      cases hm : k.mat <;> simp [hm] at this
    | cons a l => rfl
  simp only [Key.thumbprintOf, Key.thumbprint, Key.thumbInputOf, Key.thumbInput, e, hne]
  rfl

/-- Names that the serialization does not have are skipped; if none is left the digest is that of
`{}`, whatever the key. -/
theorem C95_absent (k : Key) (ser : PyDict) (names : List String)
    (hs : k.serializeDflt = .ok (.dict ser)) (h : ∀ n ∈ names, PyDict.get? ser n = none) :
    k.thumbInputOf names = .ok "{}" := by
  have hall : ∀ l : List String, (∀ n ∈ l, PyDict.get? ser n = none) →
      ∃ r : List (Option String), l.mapM (tpElem ser) = .ok r ∧ r.filterMap id = [] := by
    intro l
    induction l with
    | nil => exact fun _ => ⟨[], rfl, rfl⟩
    | cons a l ih =>
      intro h
      obtain ⟨r, h1, h2⟩ := ih fun n hn => h n (List.mem_cons_of_mem _ hn)
      refine ⟨none :: r, ?_, by simpa using h2⟩
      have ha : tpElem ser a = .ok none := by
        unfold tpElem
        rw [h a (List.mem_cons_self ..)]
      simp only [List.mapM_cons, ha, h1, Bind.bind, Except.bind, pure, Except.pure]
  obtain ⟨r, h1, h2⟩ := hall (sortNames names) fun n hn => h n ((sortNames_perm names).mem_iff.mp hn)
  simp only [Key.thumbInputOf, hs, Bind.bind, Except.bind, h1, h2]
  rfl

/-- The private members of an RSA or EC key never enter, even if they are asked for. -/
theorem C95_private (E : Env) (a b : Key) (h : SamePublic a b) (hashFn : String)
    (names : List String) : a.thumbprintOf E hashFn names = b.thumbprintOf E hashFn names := by
  have hs : a.serializeDflt = b.serializeDflt := by
    have h1 := C29_noninterference a b h
    cases h with
    | rsa ha hb => simpa [Key.serializeDflt, ha, hb] using h1
    | ec ha hb => simpa [Key.serializeDflt, ha, hb] using h1
    | plain ha hb => simpa [Key.serializeDflt, ha, hb] using h1
  unfold Key.thumbprintOf Key.thumbInputOf
  rw [hs]

/-- RFC 7638 section 3.4 / the IANA names of the hash functions. -/
inductive Spec.HashName : String → HashAlg → Prop
  | sha256 : HashName "SHA-256" .sha256
  | sha384 : HashName "SHA-384" .sha384
  | sha512 : HashName "SHA-512" .sha512

/-- The digest is that of the named function over the UTF-8 text; other names are a `KeyError`. -/
theorem C95_digest (E : Env) (k : Key) (hashFn : String) (names : List String) (s : String)
    (h : k.thumbInputOf names = .ok s) :
    (∀ a, HashName hashFn a → (k.thumbprintOf E hashFn names).1 = .ok (E.H.hash a (utf8Encode s))) ∧
    ((∀ a, ¬ HashName hashFn a) → (k.thumbprintOf E hashFn names).1 = .error .keyError) := by
  constructor
  · intro a ha
    cases ha <;> simp [Key.thumbprintOf, h, digestHash, Bind.bind, Except.bind]
  · intro ha
    have h1 : hashFn ≠ "SHA-256" := fun e => ha .sha256 (e ▸ .sha256)
    have h2 : hashFn ≠ "SHA-384" := fun e => ha .sha384 (e ▸ .sha384)
    have h3 : hashFn ≠ "SHA-512" := fun e => ha .sha512 (e ▸ .sha512)
    simp [Key.thumbprintOf, h, digestHash, h1, h2, h3, Bind.bind, Except.bind]

/-- The same for the default members. -/
theorem C95_digest_default (E : Env) (k : Key) (hashFn : String) (s : String)
    (h : k.thumbInput = .ok s) :
    (∀ a, HashName hashFn a → k.thumbprint E hashFn = .ok (E.H.hash a (utf8Encode s))) ∧
    ((∀ a, ¬ HashName hashFn a) → k.thumbprint E hashFn = .error .keyError) := by
  constructor
  · intro a ha
    cases ha <;> simp [Key.thumbprint, h, digestHash, Bind.bind, Except.bind]
  · intro ha
    have h1 : hashFn ≠ "SHA-256" := fun e => ha .sha256 (e ▸ .sha256)
    have h2 : hashFn ≠ "SHA-384" := fun e => ha .sha384 (e ▸ .sha384)
    have h3 : hashFn ≠ "SHA-512" := fun e => ha .sha512 (e ▸ .sha512)
    simp [Key.thumbprint, h, digestHash, h1, h2, h3, Bind.bind, Except.bind]

/-- `get_hash(name)` returns the digest as an integer and stores it as the key's hash; nothing else
changes, and if it raises nothing changes at all. -/
theorem C95_get_hash (E : Env) (k : Key) (hashFn : String) (tp : Bytes)
    (h : k.thumbprint E (if hashFn = "" then "SHA-256" else hashFn) = .ok tp) (hne : tp ≠ []) :
    k.getHash E hashFn = (.ok (bytesValue tp), { k with hash := some (bytesValue tp) }) := by
  have e : (if hashFn.isEmpty = true then "SHA-256" else hashFn) =
      (if hashFn = "" then "SHA-256" else hashFn) := by simp [String.isEmpty_iff]
  have e2 : tp.isEmpty = false := by cases tp <;> simp_all
  simp only [Key.getHash, e, h, Bind.bind, Except.bind, hexInt, e2, Bool.false_eq_true, if_false,
    bytesToNat_eq]
  rfl

theorem C95_get_hash_error (E : Env) (k : Key) (hashFn : String) (e : Exc) (k' : Key)
    (h : k.getHash E hashFn = (.error e, k')) : k' = k := by
  unfold Key.getHash at h
  split at h
  · simp at h
  · simp only [Prod.mk.injEq] at h
    exact h.2.symm

/-- After `get_hash(name)` with any name, `hash(k)` is that number (not the SHA-256 one), while the
key still equals what it equalled: two equal keys can end up with different hashes. -/
theorem C95_hash_follows (E : Env) (k k' b : Key) (hashFn : String) (h : Nat) (h0 : h ≠ 0)
    (hk : k.getHash E hashFn = (.ok h, k')) :
    k'.pyHash E = .ok (h, k') ∧ k'.pyEq b = k.pyEq b ∧ b.pyEq k' = b.pyEq k := by
  unfold Key.getHash at hk
  split at hk
  · simp only [Prod.mk.injEq, Except.ok.injEq] at hk
    obtain ⟨rfl, rfl⟩ := hk
    refine ⟨?_, rfl, rfl⟩
    obtain ⟨n, rfl⟩ := Nat.exists_eq_succ_of_ne_zero h0
    rfl
  · simp at hk

theorem asUnicode_b64e (tp : Bytes) :
    ∃ s, asUnicode (b64e tp) = .str s ∧ IsB64Url tp (utf8Encode s) := by
  obtain ⟨t, ht1⟩ := asciiDecode_of_lt (b := b64e tp)
    (fun c hc => (urlAlphabet_lt c ((C02_rfc4648 tp).1 c hc)).1)
  have e1 := asciiEncode_utf8 (asciiEncode_decode ht1)
  exact ⟨t, by rw [← e1.1, asUnicode_encode], by rw [e1.1]; exact C02_rfc4648 tp⟩

theorem thumbprint_labels (E : Env) (k : Key) (kid : PyVal) (hash : Option Nat) (hashFn : String) :
    Key.thumbprint E { k with kid := kid, hash := hash } hashFn = k.thumbprint E hashFn := by
  apply C31_independent
  cases hm : k.mat with
  | plain => exact .plain rfl hm
  | rsa m => exact .rsa (m := m) (m' := m) rfl hm rfl rfl rfl rfl
  | ec crv x y d c => exact .ec rfl hm
  | sym kk => exact .sym rfl hm rfl rfl

/-- `add_kid()` replaces the identifier (also one that was given) by the base64url SHA-256 thumbprint
and stores the hash; calling it again changes nothing. -/
theorem C95_add_kid (E : Env) (k : Key) (tp : Bytes) (h : k.thumbprint E "SHA-256" = .ok tp)
    (hne : tp ≠ []) :
    ∃ k' s, k.addKid E = (.ok (), k') ∧ k'.kid = .str s ∧ IsB64Url tp (utf8Encode s) ∧
      k' = { k with kid := .str s, hash := some (bytesValue tp) } ∧
      k'.addKid E = (.ok (), k') := by
  obtain ⟨s, hs, hb⟩ := asUnicode_b64e tp
  have e2 : tp.isEmpty = false := by cases tp <;> simp_all
  refine ⟨{ k with kid := .str s, hash := some (bytesValue tp) }, s, ?_, rfl, hb, rfl, ?_⟩
  · simp only [Key.addKid, h, hexInt, e2, Bool.false_eq_true, if_false, bytesToNat_eq, hs]
    rfl
  · simp only [Key.addKid, thumbprint_labels, h, hexInt, e2, Bool.false_eq_true, if_false,
      bytesToNat_eq, hs]
    rfl

/-! Instances. -/

theorem exRsa_thumb : exRsa.thumbInputOf ["n", "kty", "use", "d"] =
    .ok "{\"kty\":\"RSA\",\"n\":\"DKE\",\"use\":\"sig\"}" := by
  have : sortNames ["n", "kty", "use", "d"] = ["d", "kty", "n", "use"] :=
    sorted_unique ((sortNames_perm _).trans (by decide)) (sortNames_sorted _) (by decide)
  unfold Key.thumbInputOf
  rw [this]
  decide +kernel

example : ∃ ser, exRsa.serializeDflt = .ok (.dict ser) ∧ ThumbText ser ["n", "kty", "use", "d"]
    "{\"kty\":\"RSA\",\"n\":\"DKE\",\"use\":\"sig\"}" := by
  obtain ⟨ser, hs⟩ : ∃ ser, exRsa.serializeDflt = .ok (.dict ser) :=
    ⟨[("kty", .str "RSA"), ("use", .str "sig"), ("kid", .str "k1"), ("n", .str "DKE"), ("e", .str "EQ")],
      by decide +kernel⟩
  exact ⟨ser, hs, C95_text exRsa ser _ _ hs exRsa_thumb⟩

/-- Asking only for a private member: the digest of `{}`. -/
example : exRsa.thumbInputOf ["d", "d"] = .ok "{}" :=
  C95_absent exRsa
    [("kty", .str "RSA"), ("use", .str "sig"), ("kid", .str "k1"), ("n", .str "DKE"), ("e", .str "EQ")] _
    (by decide +kernel) (by decide)

example : exRsa.thumbprintOf toyEnv "SHA-384" ["d", "n"] = exRsa'.thumbprintOf toyEnv "SHA-384" ["d", "n"] :=
  C95_private _ _ _ (.rsa rfl rfl rfl rfl rfl ⟨rfl, rfl, rfl, rfl⟩) _ _

example : (exRsa.thumbprintOf toyEnv "SHA-1" ["n", "kty", "use", "d"]).1 = .error .keyError :=
  (C95_digest toyEnv exRsa "SHA-1" _ _ exRsa_thumb).2 (by
    intro a h
    generalize ha : "SHA-1" = s at h
    cases h <;> exact absurd ha (by decide))

/-- Two equal keys with different hashes. -/
example : ∃ h k', exRsa.getHash toyEnv "SHA-512" = (.ok h, k') ∧ k'.pyEq exRsa = .ok true ∧
    ∃ h2 k2, exRsa.pyHash toyEnv = .ok (h2, k2) ∧ k'.pyHash toyEnv = .ok (h, k') ∧ h ≠ h2 := by
  have h1 : exRsa.thumbprint toyEnv "SHA-512" = .ok
      (ascii "{\"e\":\"EQ\",\"kty\":\"RSA\",\"n\":\"DKE\"}" ++ List.replicate 32 0) := by
    decide +kernel
  have h2 := C95_get_hash toyEnv exRsa "SHA-512" _ h1 (by decide)
  obtain ⟨f1, f2, -⟩ := C95_hash_follows toyEnv exRsa _ exRsa "SHA-512" _ (by decide +kernel) h2
  refine ⟨_, _, h2, by rw [f2]; decide +kernel, bytesValue (ascii "{\"e\":\"EQ\",\"kty\":\"RSA\",\"n\":\"DKE\"}"),
    { exRsa with
      hash := some (bytesValue (ascii "{\"e\":\"EQ\",\"kty\":\"RSA\",\"n\":\"DKE\"}")) },
    by decide +kernel, f1, by decide +kernel⟩

example : ∃ k' s, exRsa.addKid toyEnv = (.ok (), k') ∧ k'.kid = .str s ∧ s ≠ "k1" := by
  obtain ⟨k', s, h, hs, hb, -⟩ := C95_add_kid toyEnv exRsa
    (ascii "{\"e\":\"EQ\",\"kty\":\"RSA\",\"n\":\"DKE\"}") (by decide +kernel) (by decide)
  refine ⟨k', s, h, hs, ?_⟩
  rintro rfl
  exact absurd (isB64Url_length hb) (by decide +kernel)

end Verif
