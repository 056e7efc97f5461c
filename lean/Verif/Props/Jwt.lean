import Verif.Proofs.Jwt
/-
Properties C08–C10: `JWT.pack` / `JWT.unpack` / `JWT.payload` (`/repo/src/jwkest/jwt.py`).
-/

namespace Verif
open Spec

/-- Packing any JSON header with any nonempty list of parts gives a text, and unpacking that text
gives back the header and exactly the bytes of the parts. -/
theorem C08_roundtrip (j : Jwt) (h : PyDict) (hj : j.headers = .dict h) (hne : h ≠ [])
    (hjs : (PyVal.dict h).jsonable = true) (ps : List PyVal) (hps : ps ≠ [])
    (hp : ∀ p ∈ ps, PartOk p) :
    ∃ s j', j.pack ps = .ok s ∧ Jwt.unpack (utf8Encode s) = .ok j' ∧ j'.headers = .dict h ∧
      List.Forall₂ PartBytes ps j'.part.tail := by
  obtain ⟨s, hdr, bs, h1, -, h3, h4, -, h6⟩ := pack_text j h hj hne hjs ps hps hp
  have hbs : bs ≠ [] := by
    rintro rfl
    cases h4
    exact hps rfl
  have hu := unpack_joinDot hdr bs _ hbs h3
  rw [← h6] at hu
  exact ⟨s, _, h1, hu, rfl, h4⟩

/-- Packing bytes or text parts loses nothing: the decoded parts are the given bytes. -/
theorem C08_bytes (j : Jwt) (h : PyDict) (hj : j.headers = .dict h) (hne : h ≠ [])
    (hjs : (PyVal.dict h).jsonable = true) (bs : List Bytes) (hbs : bs ≠ []) :
    ∃ s j', j.pack (bs.map PyVal.bytes) = .ok s ∧ Jwt.unpack (utf8Encode s) = .ok j' ∧
      j'.headers = .dict h ∧ j'.part.tail = bs := by
  obtain ⟨s, j', h1, h2, h3, h4⟩ := C08_roundtrip j h hj hne hjs (bs.map PyVal.bytes)
    (by simpa using hbs) (by
      intro p hp
      obtain ⟨b, -, rfl⟩ := List.mem_map.mp hp
      trivial)
  refine ⟨s, j', h1, h2, h3, ?_⟩
  generalize j'.part.tail = t at h4
  clear h1 h2 h3 hbs
  induction bs generalizing t with
  | nil => cases h4; rfl
  | cons b bs ih =>
    cases h4 with
    | cons h h' => rw [ih _ h']; exact congrArg (· :: bs) h

theorem PyDict.get?_set (d : PyDict) (k k' : String) (v : PyVal) :
    PyDict.get? (PyDict.set d k v) k' = if k' = k then some v else PyDict.get? d k' := by
  induction d with
  | nil =>
    simp only [PyDict.set, PyDict.get?, List.lookup_cons, List.lookup_nil]
    by_cases h : k' = k
    · simp [h]
    · have : (k' == k) = false := by simpa using h
      simp [h, this]
  | cons kv d ih =>
    obtain ⟨k'', v''⟩ := kv
    simp only [PyDict.get?] at ih
    unfold PyDict.set PyDict.get?
    split
    · rename_i h; subst h
      simp only [List.lookup_cons]
      by_cases h : k' = k''
      · simp [h]
      · have : (k' == k'') = false := by simpa using h
        simp [h, this]
    · rename_i h
      simp only [List.lookup_cons, ih]
      by_cases h1 : k' = k''
      · subst h1; simp [h]
      · have : (k' == k'') = false := by simpa using h1
        simp [this]

theorem PyDict.set_keys_nodup (d : PyDict) (k : String) (v : PyVal)
    (h : (d.map Prod.fst).Nodup) : ((PyDict.set d k v).map Prod.fst).Nodup := by
  by_cases hk : k ∈ d.map Prod.fst
  · have : (PyDict.set d k v).map Prod.fst = d.map Prod.fst := by
      clear h
      induction d with
      | nil => simp at hk
      | cons kv d ih =>
        obtain ⟨k', v'⟩ := kv
        unfold PyDict.set
        split
        · rename_i e; subst e; rfl
        · rename_i e
          simp only [List.map_cons, List.mem_cons] at hk ⊢
          rw [ih (hk.resolve_left (fun x => e x.symm))]
    rw [this]; exact h
  · rw [PyDict.set_not_mem d k v hk, List.map_append, List.nodup_append]
    refine ⟨h, by simp, ?_⟩
    intro a ha b hb
    simp at hb
    subst hb
    rintro rfl
    exact hk ha

theorem jsonableD_set (d : PyDict) (k : String) (v : PyVal) (h : PyVal.jsonableD d = true)
    (hv : v.jsonable = true) : PyVal.jsonableD (PyDict.set d k v) = true := by
  induction d with
  | nil => simp [PyDict.set, PyVal.jsonableD, hv]
  | cons kv d ih =>
    obtain ⟨k', v'⟩ := kv
    simp only [PyVal.jsonableD, Bool.and_eq_true] at h
    unfold PyDict.set
    split
    · simp [PyVal.jsonableD, hv, h.2]
    · simp [PyVal.jsonableD, h.1, ih h.2]

theorem jsonable_set (d : PyDict) (k : String) (v : PyVal)
    (h : (PyVal.dict d).jsonable = true) (hv : v.jsonable = true) :
    (PyVal.dict (PyDict.set d k v)).jsonable = true := by
  simp only [PyVal.jsonable, Bool.and_eq_true, decide_eq_true_eq] at h ⊢
  exact ⟨PyDict.set_keys_nodup d k v h.1, jsonableD_set d k v h.2 hv⟩

theorem PyDict.set_ne_nil (d : PyDict) (k : String) (v : PyVal) : PyDict.set d k v ≠ [] := by
  cases d with
  | nil => simp [PyDict.set]
  | cons kv d => obtain ⟨k', v'⟩ := kv; unfold PyDict.set; split <;> simp

/-- The same for a token built with `JWT(**h)`: the header that comes back has the given members,
`alg` being null when the given one is missing or false. -/
theorem C08_init (h : PyDict) (hs : PyDict.get? h "self" = none)
    (hjs : (PyVal.dict h).jsonable = true) (bs : List Bytes) (hbs : bs ≠ []) :
    ∃ j s j' h', Jwt.init h = .ok j ∧ j.pack (bs.map PyVal.bytes) = .ok s ∧
      Jwt.unpack (utf8Encode s) = .ok j' ∧ j'.headers = .dict h' ∧ j'.part.tail = bs ∧
      (∀ k, k ≠ "alg" → PyDict.get? h' k = PyDict.get? h k) ∧
      ((∃ v, PyDict.get? h "alg" = some v ∧ v.truthy = true ∧ PyDict.get? h' "alg" = some v) ∨
       (((PyDict.get? h "alg").getD .none).truthy = false ∧
          PyDict.get? h' "alg" = some .none)) := by
  have hb : ∀ h' : PyDict, (PyVal.dict h').jsonable = true →
      ∃ hdr, b64encodeItem (.dict h') = .ok (b64e hdr) := fun h' hh => by
    obtain ⟨hdr, h1, -⟩ := jsonLoads_dumpsC _ hh
    exact ⟨utf8Encode hdr, by
      simp [b64encodeItem, b2sConv_jsonable _ hh, h1, Bind.bind, Except.bind]⟩
  by_cases ha : ((PyDict.get? h "alg").getD .none).truthy = true
  · obtain ⟨hdr, h1⟩ := hb h hjs
    have hne : h ≠ [] := by
      rintro rfl
      simp [PyDict.get?, PyVal.truthy] at ha
    obtain ⟨s, j', h2, h3, h4, h5⟩ := C08_bytes
      { headers := .dict h, b64part := [b64e hdr], part := [hdr] } h rfl hne hjs bs hbs
    refine ⟨_, s, j', h, ?_, h2, h3, h4, h5, fun _ _ => rfl, .inl ?_⟩
    · unfold Jwt.init
      rw [if_neg (by simp [PyDict.has, hs])]
      simp only [ha, if_true, Bind.bind, Except.bind, h1, C01_roundtrip]
    · cases hg : PyDict.get? h "alg" with
      | none => rw [hg] at ha; simp [PyVal.truthy] at ha
      | some v => rw [hg] at ha; exact ⟨v, rfl, ha, rfl⟩
  · have hjs' := jsonable_set h "alg" .none hjs rfl
    obtain ⟨hdr, h1⟩ := hb _ hjs'
    obtain ⟨s, j', h2, h3, h4, h5⟩ := C08_bytes
      { headers := .dict (PyDict.set h "alg" .none), b64part := [b64e hdr], part := [hdr] } _ rfl
      (PyDict.set_ne_nil _ _ _) hjs' bs hbs
    refine ⟨_, s, j', _, ?_, h2, h3, h4, h5, fun k hk => ?_, .inr ⟨by simpa using ha, ?_⟩⟩
    · unfold Jwt.init
      rw [if_neg (by simp [PyDict.has, hs])]
      simp only [ha, Bool.false_eq_true, if_false, Bind.bind, Except.bind, h1, C01_roundtrip]
    · rw [PyDict.get?_set, if_neg hk]
    · rw [PyDict.get?_set, if_pos rfl]

example : ∃ j s j' h', Jwt.init [("alg", .str "HS256"), ("kid", .int 7)] = .ok j ∧
    j.pack ([[1, 2], []].map PyVal.bytes) = .ok s ∧ Jwt.unpack (utf8Encode s) = .ok j' ∧
    j'.headers = .dict h' ∧ j'.part.tail = [[1, 2], []] ∧
    PyDict.get? h' "alg" = some (.str "HS256") := by
  obtain ⟨j, s, j', h', h1, h2, h3, h4, h5, -, h7⟩ :=
    C08_init [("alg", .str "HS256"), ("kid", .int 7)] (by decide) (by decide) [[1, 2], []] (by decide)
  refine ⟨j, s, j', h', h1, h2, h3, h4, h5, ?_⟩
  rcases h7 with ⟨v, hv, -, h⟩ | ⟨h, -⟩
  · rw [h, ← hv]; decide
  · exact absurd h (by decide)

/-! ### C09 -/

/-- The dot-separated segments of a text: joining them with dots gives the text, and none of them
contains a dot.  (This determines the list, see `C09_segments_unique`.) -/
def Segments (t : Bytes) (l : List Bytes) : Prop :=
  l ≠ [] ∧ joinDot l = t ∧ ∀ s ∈ l, (46 : UInt8) ∉ s

theorem C09_segments_unique {t : Bytes} {l m : List Bytes} (hl : Segments t l)
    (hm : Segments t m) : l = m := by
  rw [← splitDot_joinDot l hl.1 hl.2.2, ← splitDot_joinDot m hm.1 hm.2.2, hl.2.1, hm.2.1]

theorem segments_splitDot (t : Bytes) : Segments t (splitDot t) :=
  ⟨splitDot_ne_nil t, joinDot_splitDot t, splitDot_no_dot t⟩

/-- Text without a dot is rejected with `BadSyntax`. -/
theorem C09_no_dot (t : Bytes) (h : (46 : UInt8) ∉ t) : Jwt.unpack t = .error .badSyntax := by
  unfold Jwt.unpack splitToken
  rw [if_pos (List.count_eq_zero.mpr h)]
  rfl

theorem mapM_forall₂ {α β : Type} {f : α → PyM β} : ∀ {l : List α} {m : List β},
    l.mapM f = .ok m ↔ List.Forall₂ (fun a b => f a = .ok b) l m
  | [], m => by
    constructor
    · intro h; cases h; exact .nil
    · intro h; cases h; rfl
  | a :: l, m => by
    simp only [List.mapM_cons, Bind.bind, Except.bind, Pure.pure, Except.pure]
    constructor
    · intro h
      split at h
      · simp at h
      split at h
      · simp at h
      cases h
      rename_i h1 _ _ h2
      exact .cons h1 (mapM_forall₂.mp h2)
    · intro h
      cases h with
      | cons h1 h2 => simp [h1, mapM_forall₂.mpr h2]

/-- `unpack` returns exactly when there is a dot, every segment is decodable on its own and the
first decodes to JSON text; what it returns is determined by the segments. -/
theorem C09_unpack_iff (t : Bytes) (j : Jwt) :
    Jwt.unpack t = .ok j ↔
      (46 : UInt8) ∈ t ∧ Segments t j.b64part ∧
      List.Forall₂ (fun seg p => b64d seg = .ok p) j.b64part j.part ∧
      ∃ p0 rest s, j.part = p0 :: rest ∧ utf8Decode p0 = .ok s ∧ jsonLoads s = .ok j.headers := by
  by_cases hd : (46 : UInt8) ∈ t
  · have hc : t.count 46 ≠ 0 := by rw [Ne, List.count_eq_zero]; simpa using hd
    unfold Jwt.unpack splitToken
    rw [if_neg hc]
    simp only [Bind.bind, Except.bind]
    constructor
    · intro h
      split at h
      · simp at h
      rename_i dec hdec
      split at h
      · simp at h
      rename_i s hs
      split at h
      · simp at h
      rename_i v hv
      cases h
      refine ⟨hd, segments_splitDot t, mapM_forall₂.mp hdec, ?_⟩
      cases dec with
      | nil =>
        have := mapM_ok_length hdec
        rw [splitDot_length] at this
        simp at this
      | cons p0 rest => exact ⟨p0, rest, s, rfl, hs, hv⟩
    · rintro ⟨-, hseg, hall, p0, rest, s, hp, hs, hv⟩
      rw [C09_segments_unique (segments_splitDot t) hseg, mapM_forall₂.mpr hall]
      obtain ⟨hh, hb, hpart⟩ := j
      simp only at hp hs hv ⊢
      subst hp
      simp only [List.headD_cons, hs, hv]
  · rw [C09_no_dot t hd]
    constructor
    · intro h; simp at h
    · rintro ⟨h, -⟩; exact absurd h hd

/-- One part per segment. -/
theorem C09_count (t : Bytes) (j : Jwt) (h : Jwt.unpack t = .ok j) :
    j.part.length = t.count 46 + 1 ∧ j.b64part.length = t.count 46 + 1 := by
  obtain ⟨-, h2, h3, -⟩ := (C09_unpack_iff t j).mp h
  have := C09_segments_unique h2 (segments_splitDot t)
  have hl := splitDot_length t
  rw [← this] at hl
  exact ⟨by rw [← h3.length_eq, hl], hl⟩

example : Jwt.unpack (ascii "e30.AQI.") =
    .ok { headers := .dict [], b64part := [ascii "e30", ascii "AQI", []],
          part := [ascii "{}", [1, 2], []] } := by decide +kernel

example : Jwt.unpack (ascii "e30.A") = .error .badSyntax := by decide +kernel

/-! ### C10 -/

/-- `cty` allows JSON interpretation: absent, or the text "jwt" in any letter case. -/
def CtyJson (h : PyDict) : Prop :=
  PyDict.get? h "cty" = none ∨ ∃ c, PyDict.get? h "cty" = some (.str c) ∧ pyLower c = "jwt"

/-- `cty` is some other text. -/
def CtyOther (h : PyDict) : Prop :=
  ∃ c, PyDict.get? h "cty" = some (.str c) ∧ pyLower c ≠ "jwt"

theorem payload_json (jb : Bytes → PyM PyVal) (j : Jwt) (h : PyDict) (hj : j.headers = .dict h)
    (p : Bytes) (hp : j.part[1]? = some p) (hc : CtyJson h) :
    j.payload jb = match jsonLoadsVal jb (asUnicode p) with
      | .ok v => .ok v
      | .error e => if e.isValueError then .ok (asUnicode p) else .error e := by
  unfold Jwt.payload
  rw [hp, hj]
  rcases hc with hc | ⟨c, hc, hl⟩
  · simp [PyVal.contains, PyDict.has, hc, Bind.bind, Except.bind]; rfl
  · simp [PyVal.contains, PyVal.getItem, PyDict.has, hc, PyVal.lower, hl, Bind.bind, Except.bind]
    rfl

theorem payload_other (jb : Bytes → PyM PyVal) (j : Jwt) (h : PyDict) (hj : j.headers = .dict h)
    (p : Bytes) (hp : j.part[1]? = some p) (hc : CtyOther h) :
    j.payload jb = .ok (asUnicode p) := by
  unfold Jwt.payload
  rw [hp, hj]
  obtain ⟨c, hc, hl⟩ := hc
  simp [PyVal.contains, PyVal.getItem, PyDict.has, hc, PyVal.lower, hl, Bind.bind, Except.bind]

theorem asUnicode_encode (s : String) : asUnicode (utf8Encode s) = .str s := by
  simp [asUnicode, utf8Decode_encode]

/-- JSON text is returned parsed when `cty` is absent or "jwt" in any case. -/
theorem C10_json (jb : Bytes → PyM PyVal) (j : Jwt) (h : PyDict) (hj : j.headers = .dict h)
    (s : String) (v : PyVal) (hp : j.part[1]? = some (utf8Encode s)) (hc : CtyJson h)
    (hv : jsonLoads s = .ok v) : j.payload jb = .ok v := by
  rw [payload_json jb j h hj _ hp hc, asUnicode_encode]
  simp [jsonLoadsVal, hv]

/-- Text that is not JSON, or that comes with another `cty`, is returned as text. -/
theorem C10_text (jb : Bytes → PyM PyVal) (j : Jwt) (h : PyDict) (hj : j.headers = .dict h)
    (s : String) (hp : j.part[1]? = some (utf8Encode s))
    (hc : CtyOther h ∨ (CtyJson h ∧ ∀ v, jsonLoads s ≠ .ok v)) :
    j.payload jb = .ok (.str s) := by
  rcases hc with hc | ⟨hc, hn⟩
  · rw [payload_other jb j h hj _ hp hc, asUnicode_encode]
  · rw [payload_json jb j h hj _ hp hc, asUnicode_encode]
    simp only [jsonLoadsVal]
    cases he : jsonLoads s with
    | ok v => exact absurd he (hn v)
    | error e => rw [jsonLoads_error he]; rfl

/-- Bytes that are not UTF-8: what `json.loads` makes of them (it tries UTF-16/32), else the raw
bytes. -/
theorem C10_bytes (jb : Bytes → PyM PyVal) (hjb : JsonBytesLawful jb) (j : Jwt) (h : PyDict)
    (hj : j.headers = .dict h) (p : Bytes) (hp : j.part[1]? = some p)
    (hu : ∀ s, p ≠ utf8Encode s) :
    (CtyOther h → j.payload jb = .ok (.bytes p)) ∧
    (CtyJson h → (∃ v, jb p = .ok v ∧ j.payload jb = .ok v) ∨
      ((∀ v, jb p ≠ .ok v) ∧ j.payload jb = .ok (.bytes p))) := by
  have ha : asUnicode p = .bytes p := by
    unfold asUnicode
    split
    · rename_i s hs
      exact absurd (utf8Encode_of_decode hs).symm (hu s)
    · rfl
  constructor
  · intro hc; rw [payload_other jb j h hj _ hp hc, ha]
  · intro hc
    rw [payload_json jb j h hj _ hp hc, ha]
    simp only [jsonLoadsVal]
    cases he : jb p with
    | ok v => exact .inl ⟨v, rfl, rfl⟩
    | error e => exact .inr ⟨by simp, by simp [hjb p e he]⟩

/-- `payload` never raises on a token with a second part, an object header and a text (or no)
`cty`. -/
theorem C10_total (jb : Bytes → PyM PyVal) (hjb : JsonBytesLawful jb) (t : Bytes) (j : Jwt)
    (ht : Jwt.unpack t = .ok j) (h : PyDict) (hj : j.headers = .dict h)
    (hc : PyDict.get? h "cty" = none ∨ ∃ c, PyDict.get? h "cty" = some (.str c)) :
    (j.payload jb).Returns := by
  obtain ⟨hd, -⟩ := (C09_unpack_iff t j).mp ht
  have hlen := (C09_count t j ht).1
  have hpos : 0 < t.count 46 := List.count_pos_iff.mpr hd
  have hlt : 1 < j.part.length := by omega
  have hp : j.part[1]? = some j.part[1] := List.getElem?_eq_getElem hlt
  have hc' : CtyOther h ∨ CtyJson h := by
    rcases hc with hc | ⟨c, hc⟩
    · exact .inr (.inl hc)
    · by_cases hl : pyLower c = "jwt"
      · exact .inr (.inr ⟨c, hc, hl⟩)
      · exact .inl ⟨c, hc, hl⟩
  generalize j.part[1] = p at hp
  by_cases hu : ∃ s, p = utf8Encode s
  · obtain ⟨s, rfl⟩ := hu
    rcases hc' with hc | hc
    · exact ⟨_, C10_text jb j h hj s hp (.inl hc)⟩
    · cases he : jsonLoads s with
      | ok v => exact ⟨_, C10_json jb j h hj s v hp hc he⟩
      | error e => exact ⟨_, C10_text jb j h hj s hp (.inr ⟨hc, by simp [he]⟩)⟩
  · have hu' : ∀ s, p ≠ utf8Encode s := fun s hs => hu ⟨s, hs⟩
    obtain ⟨h1, h2⟩ := C10_bytes jb hjb j h hj p hp hu'
    rcases hc' with hc | hc
    · exact ⟨_, h1 hc⟩
    · rcases h2 hc with ⟨v, -, hv⟩ | ⟨-, hv⟩
      · exact ⟨_, hv⟩
      · exact ⟨_, hv⟩

/-- A `cty` that is not text makes `payload` raise `AttributeError`. -/
theorem C10_bad_cty (jb : Bytes → PyM PyVal) (j : Jwt) (h : PyDict) (hj : j.headers = .dict h)
    (p : Bytes) (hp : j.part[1]? = some p) (i : Int) (hc : PyDict.get? h "cty" = some (.int i)) :
    j.payload jb = .error .attributeError := by
  unfold Jwt.payload
  rw [hp, hj]
  simp [PyVal.contains, PyVal.getItem, PyDict.has, hc, PyVal.lower, Bind.bind, Except.bind]

example (jb : Bytes → PyM PyVal) : Jwt.payload jb ⟨.dict [("cty", .str "JwT")], [],
    [[], ascii "{\"a\":1}"]⟩ = .ok (.dict [("a", .int 1)]) :=
  C10_json jb _ [("cty", .str "JwT")] rfl "{\"a\":1}" _ (by decide)
    (.inr ⟨"JwT", by decide, by decide⟩) (by decide +kernel)

example (jb : Bytes → PyM PyVal) : Jwt.payload jb ⟨.dict [("cty", .str "text")], [],
    [[], ascii "{\"a\":1}"]⟩ = .ok (.str "{\"a\":1}") :=
  C10_text jb _ [("cty", .str "text")] rfl "{\"a\":1}" (by decide)
    (.inl ⟨"text", by decide, by decide⟩)

end Verif
