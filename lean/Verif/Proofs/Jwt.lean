import Verif.Model.Jwt
import Verif.Props.Base64
import Verif.Proofs.Json
import Mathlib.Data.List.Forall2
/-
Lemmas on token segmentation, packing and unpacking.
-/

namespace Verif
open Spec

/-- Segments joined by single dots. -/
def joinDot : List Bytes → Bytes
  | [] => []
  | [s] => s
  | s :: l => s ++ 46 :: joinDot l

theorem splitDot_ne_nil (t : Bytes) : splitDot t ≠ [] := by
  cases t with
  | nil => simp [splitDot]
  | cons c t =>
    rw [splitDot]
    split
    · simp
    · split <;> simp

theorem joinDot_cons {s : Bytes} {l : List Bytes} (h : l ≠ []) :
    joinDot (s :: l) = s ++ 46 :: joinDot l := by
  cases l with
  | nil => exact absurd rfl h
  | cons a l => rfl

theorem joinDot_splitDot (t : Bytes) : joinDot (splitDot t) = t := by
  induction t with
  | nil => rfl
  | cons c t ih =>
    rw [splitDot]
    split
    · rename_i h; subst h
      rw [joinDot_cons (splitDot_ne_nil t), ih]; rfl
    · split
      · rename_i s r heq
        rw [heq] at ih
        cases r with
        | nil => simp only [joinDot] at ih ⊢; rw [ih]
        | cons x r => simp only [joinDot] at ih ⊢; rw [← ih]; rfl
      · rename_i heq; exact absurd heq (splitDot_ne_nil t)

theorem splitDot_no_dot (t : Bytes) : ∀ s ∈ splitDot t, (46 : UInt8) ∉ s := by
  induction t with
  | nil => simp [splitDot]
  | cons c t ih =>
    rw [splitDot]
    split
    · intro s hs
      rcases List.mem_cons.mp hs with rfl | hs
      · simp
      · exact ih s hs
    · rename_i hc
      split
      · rename_i s r heq
        rw [heq] at ih
        intro x hx
        rcases List.mem_cons.mp hx with rfl | hx
        · intro hm
          rcases List.mem_cons.mp hm with h | hm
          · exact hc h.symm
          · exact ih s (by simp) hm
        · exact ih x (by simp [hx])
      · rename_i heq; exact absurd heq (splitDot_ne_nil t)

theorem splitDot_length (t : Bytes) : (splitDot t).length = t.count 46 + 1 := by
  induction t with
  | nil => rfl
  | cons c t ih =>
    rw [splitDot]
    split
    · rename_i h; subst h; simp [ih]
    · rename_i h
      split
      · rename_i s r heq
        rw [heq] at ih
        simp [h] at ih ⊢
        exact ih
      · rename_i heq; exact absurd heq (splitDot_ne_nil t)

theorem splitDot_seg (s : Bytes) (h : (46 : UInt8) ∉ s) : splitDot s = [s] := by
  induction s with
  | nil => rfl
  | cons c s ih =>
    simp only [List.mem_cons, not_or] at h
    rw [splitDot, if_neg (Ne.symm h.1), ih h.2]

theorem splitDot_append (s t : Bytes) (h : (46 : UInt8) ∉ s) :
    splitDot (s ++ 46 :: t) = s :: splitDot t := by
  induction s with
  | nil => simp [splitDot]
  | cons c s ih =>
    simp only [List.mem_cons, not_or] at h
    rw [List.cons_append, splitDot, if_neg (Ne.symm h.1), ih h.2]

theorem splitDot_joinDot : ∀ (l : List Bytes), l ≠ [] → (∀ s ∈ l, (46 : UInt8) ∉ s) →
    splitDot (joinDot l) = l
  | [], h, _ => absurd rfl h
  | [s], _, h => splitDot_seg s (h s (by simp))
  | s :: a :: l, _, h => by
    rw [joinDot_cons (by simp), splitDot_append _ _ (h s (by simp)),
      splitDot_joinDot (a :: l) (by simp) (fun x hx => h x (by simp [hx]))]

theorem urlAlphabet_lt (c : UInt8) (h : c ∈ urlAlphabet) : c < 128 ∧ c ≠ 46 := by
  have : ∀ c ∈ urlAlphabet, c < 128 ∧ c ≠ 46 := by decide
  exact this c h

theorem b64e_no_dot (b : Bytes) : (46 : UInt8) ∉ b64e b := fun h =>
  (urlAlphabet_lt _ ((C02_rfc4648 b).1 _ h)).2 rfl

theorem b64e_ascii (b : Bytes) : ∀ c ∈ b64e b, c < 128 := fun c h =>
  (urlAlphabet_lt c ((C02_rfc4648 b).1 c h)).1

/-- ASCII bytes are valid UTF-8 and survive decoding and encoding. -/
theorem utf8Decode_ascii {b : Bytes} (h : ∀ c ∈ b, c < 128) :
    ∃ s, utf8Decode b = .ok s ∧ utf8Encode s = b := by
  obtain ⟨s, hs⟩ := asciiDecode_of_lt h
  have he := (asciiEncode_utf8 (asciiEncode_decode hs)).1
  exact ⟨s, by rw [← he, utf8Decode_encode], he⟩

theorem utf8Encode_append (s t : String) : utf8Encode (s ++ t) = utf8Encode s ++ utf8Encode t := by
  simp [utf8Encode]

theorem utf8Encode_strJoin : ∀ l : List String,
    utf8Encode (strJoin l) = joinDot (l.map utf8Encode)
  | [] => rfl
  | [s] => rfl
  | s :: a :: l => by
    have h := utf8Encode_strJoin (a :: l)
    rw [List.map_cons, joinDot_cons (by simp), ← h, strJoin.eq_3 _ _ (by simp),
      utf8Encode_append, utf8Encode_append, show utf8Encode "." = [46] by decide]
    simp

theorem mapM_utf8Decode_ascii (l : List Bytes) (h : ∀ b ∈ l, ∀ c ∈ b, c < 128) :
    ∃ ss, l.mapM utf8Decode = .ok ss ∧ ss.map utf8Encode = l := by
  induction l with
  | nil => exact ⟨[], rfl, rfl⟩
  | cons b l ih =>
    obtain ⟨ss, h1, h2⟩ := ih (fun x hx => h x (by simp [hx]))
    obtain ⟨s, h3, h4⟩ := utf8Decode_ascii (h b (by simp))
    exact ⟨s :: ss, by simp [List.mapM_cons, h1, h3, Bind.bind, Except.bind, Pure.pure, Except.pure],
      by simp [h2, h4]⟩

theorem mapM_b64d_b64e (l : List Bytes) : (l.map b64e).mapM b64d = .ok l := by
  induction l with
  | nil => rfl
  | cons b l ih =>
    simp [List.mapM_cons, ih, C01_roundtrip, Bind.bind, Except.bind, Pure.pure, Except.pure]

theorem mapM_ok_length {α β : Type} {f : α → PyM β} : ∀ {l : List α} {m : List β},
    l.mapM f = .ok m → m.length = l.length
  | [], m, h => by cases h; rfl
  | a :: l, m, h => by
    simp only [List.mapM_cons, Bind.bind, Except.bind, Pure.pure, Except.pure] at h
    split at h
    · simp at h
    split at h
    · simp at h
    cases h
    rename_i h2
    simp [mapM_ok_length h2]

theorem mapM_ok_getElem? {α β : Type} {f : α → PyM β} : ∀ {l : List α} {m : List β},
    l.mapM f = .ok m → ∀ (i : Nat) (a : α), l[i]? = some a → ∃ b, m[i]? = some b ∧ f a = .ok b
  | [], m, h, i, a, hi => by simp at hi
  | x :: l, m, h, i, a, hi => by
    simp only [List.mapM_cons, Bind.bind, Except.bind, Pure.pure, Except.pure] at h
    split at h
    · simp at h
    split at h
    · simp at h
    rename_i h1 _ _ h2
    cases h
    cases i with
    | zero => simp at hi; subst hi; exact ⟨_, by simp, h1⟩
    | succ i =>
      simp only [List.getElem?_cons_succ] at hi ⊢
      exact mapM_ok_getElem? h2 i a hi

/-! ### `b2s_conv` leaves JSON values alone -/

mutual
theorem b2sConv_jsonable : ∀ v : PyVal, v.jsonable = true → b2sConv v = .ok v
  | .none, _ => rfl
  | .bool _, _ => rfl
  | .int _, _ => rfl
  | .str _, _ => rfl
  | .float _, h => by simp [PyVal.jsonable] at h
  | .bytes _, h => by simp [PyVal.jsonable] at h
  | .list l, h => by
    simp only [PyVal.jsonable] at h
    simp [b2sConv, b2sConvL_jsonable l h, Except.map]
  | .dict d, h => by
    simp only [PyVal.jsonable, Bool.and_eq_true] at h
    simp [b2sConv, b2sConvD_jsonable d h.2, Except.map]
theorem b2sConvL_jsonable : ∀ l : List PyVal, PyVal.jsonableL l = true → b2sConvL l = .ok l
  | [], _ => rfl
  | v :: l, h => by
    simp only [PyVal.jsonableL, Bool.and_eq_true] at h
    simp [b2sConvL, b2sConv_jsonable v h.1, b2sConvL_jsonable l h.2, Bind.bind, Except.bind]
theorem b2sConvD_jsonable : ∀ l : List (String × PyVal), PyVal.jsonableD l = true →
    b2sConvD l = .ok l
  | [], _ => rfl
  | (k, v) :: l, h => by
    simp only [PyVal.jsonableD, Bool.and_eq_true] at h
    simp [b2sConvD, b2sConv_jsonable v h.1, b2sConvD_jsonable l h.2, Bind.bind, Except.bind]
end

/-- The bytes a part stands for in a packed token: bytes as they are, text as UTF-8, any other
JSON value as JSON text denoting it. -/
def PartBytes (p : PyVal) (b : Bytes) : Prop :=
  match p with
  | .bytes x => b = x
  | .str s => b = utf8Encode s
  | v => ∃ s, b = utf8Encode s ∧ jsonLoads s = .ok v

/-- Parts that can be packed: bytes, text, None, lists and dictionaries of JSON values. -/
def PartOk : PyVal → Prop
  | .bytes _ | .str _ => True
  | .int _ | .bool _ => False
  | v => v.jsonable = true

theorem b64encodeItem_ok (p : PyVal) (h : PartOk p) :
    ∃ b, b64encodeItem p = .ok (b64e b) ∧ PartBytes p b := by
  cases p with
  | bytes b => exact ⟨b, rfl, rfl⟩
  | str s => exact ⟨_, rfl, rfl⟩
  | int i => exact h.elim
  | bool i => exact h.elim
  | none =>
    obtain ⟨s, h1, h2⟩ := jsonLoads_dumpsC .none h
    exact ⟨_, by simp [b64encodeItem, b2sConv_jsonable _ h, h1, Bind.bind, Except.bind], s, rfl, h2⟩
  | float t =>
    obtain ⟨s, h1, h2⟩ := jsonLoads_dumpsC _ h
    exact ⟨_, by simp [b64encodeItem, b2sConv_jsonable _ h, h1, Bind.bind, Except.bind], s, rfl, h2⟩
  | list l =>
    obtain ⟨s, h1, h2⟩ := jsonLoads_dumpsC _ h
    exact ⟨_, by simp [b64encodeItem, b2sConv_jsonable _ h, h1, Bind.bind, Except.bind], s, rfl, h2⟩
  | dict l =>
    obtain ⟨s, h1, h2⟩ := jsonLoads_dumpsC _ h
    exact ⟨_, by simp [b64encodeItem, b2sConv_jsonable _ h, h1, Bind.bind, Except.bind], s, rfl, h2⟩

theorem mapM_b64encodeItem_ok (ps : List PyVal) (h : ∀ p ∈ ps, PartOk p) :
    ∃ bs, ps.mapM b64encodeItem = .ok (bs.map b64e) ∧ List.Forall₂ PartBytes ps bs := by
  induction ps with
  | nil => exact ⟨[], rfl, .nil⟩
  | cons p ps ih =>
    obtain ⟨bs, h1, h2⟩ := ih (fun x hx => h x (by simp [hx]))
    obtain ⟨b, h3, h4⟩ := b64encodeItem_ok p (h p (by simp))
    exact ⟨b :: bs, by
      simp [List.mapM_cons, h1, h3, Bind.bind, Except.bind, Pure.pure, Except.pure], .cons h4 h2⟩

/-- A text made of base64url segments, the first of which is JSON text, unpacks to them. -/
theorem unpack_joinDot (hdr : String) (bs : List Bytes) (v : PyVal) (hne : bs ≠ [])
    (hv : jsonLoads hdr = .ok v) :
    Jwt.unpack (joinDot ((utf8Encode hdr :: bs).map b64e)) =
      .ok { headers := v, b64part := (utf8Encode hdr :: bs).map b64e,
            part := utf8Encode hdr :: bs } := by
  have hs := splitDot_joinDot ((utf8Encode hdr :: bs).map b64e) (by simp) (by
    intro s hs
    obtain ⟨b, -, rfl⟩ := List.mem_map.mp hs
    exact b64e_no_dot b)
  have hl := splitDot_length (joinDot ((utf8Encode hdr :: bs).map b64e))
  rw [hs] at hl
  have hpos : bs.length ≠ 0 := by simpa using hne
  unfold Jwt.unpack splitToken
  rw [if_neg (by simp at hl ⊢; omega), hs]
  simp only [Bind.bind, Except.bind]
  rw [mapM_b64d_b64e]
  simp only [List.headD_cons, utf8Decode_encode, hv]

/-- Packing under a JSON header: the text, as bytes, is the dot-joined base64url segments. -/
theorem pack_text (j : Jwt) (h : PyDict) (hj : j.headers = .dict h) (hne : h ≠ [])
    (hjs : (PyVal.dict h).jsonable = true) (ps : List PyVal) (hps : ps ≠ [])
    (hp : ∀ p ∈ ps, PartOk p) :
    ∃ s hdr bs, j.pack ps = .ok s ∧ jsonDumpsC (.dict h) = .ok hdr ∧
      jsonLoads hdr = .ok (.dict h) ∧ List.Forall₂ PartBytes ps bs ∧
      ps.mapM b64encodeItem = .ok (bs.map b64e) ∧
      utf8Encode s = joinDot ((utf8Encode hdr :: bs).map b64e) := by
  obtain ⟨hdr, h1, h2⟩ := jsonLoads_dumpsC _ hjs
  obtain ⟨bs, h3, h4⟩ := mapM_b64encodeItem_ok ps hp
  obtain ⟨ss, h5, h6⟩ := mapM_utf8Decode_ascii ((utf8Encode hdr :: bs).map b64e) (by
    intro b hb
    obtain ⟨x, -, rfl⟩ := List.mem_map.mp hb
    exact b64e_ascii x)
  refine ⟨strJoin ss, hdr, bs, ?_, h1, h2, h4, h3, by rw [utf8Encode_strJoin, h6]⟩
  unfold Jwt.pack
  have ht : (PyVal.dict h).truthy = true := by simp [PyVal.truthy, hne]
  rw [hj, if_pos ht, if_neg (by simpa using hps)]
  have hb : b64encodeItem (.dict h) = .ok (b64e (utf8Encode hdr)) := by
    simp [b64encodeItem, b2sConv_jsonable _ hjs, h1, Bind.bind, Except.bind]
  simp only [Bind.bind, Except.bind, hb, h3]
  rw [List.map_cons] at h5
  rw [h5]

end Verif
