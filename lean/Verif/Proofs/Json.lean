import Verif.Py.Json
import Verif.Proofs.Str
/-
The JSON codec round trip: parsing a printed value gives the value back.
-/

namespace Verif

theorem hexVal_hexDigit (n : Nat) (h : n < 16) : hexVal (hexDigit n) = some n := by
  have : ∀ n : Fin 16, hexVal (hexDigit n.val) = some n.val := by decide
  exact this ⟨n, h⟩

theorem hex4Val_hex4 (n : Nat) (h : n < 65536) :
    hex4Val (hexDigit (n / 4096 % 16)) (hexDigit (n / 256 % 16)) (hexDigit (n / 16 % 16))
      (hexDigit (n % 16)) = some n := by
  unfold hex4Val
  simp only [hexVal_hexDigit _ (Nat.mod_lt _ (by decide : 0 < 16)), Option.bind_eq_bind,
    Option.bind_some, Option.some.injEq]
  omega

theorem parseStr_u (a b c d : Char) (n : Nat) (r : List Char) (h : hex4Val a b c d = some n)
    (hn : ¬(55296 ≤ n ∧ n < 57344)) :
    parseStr ('\\' :: 'u' :: a :: b :: c :: d :: r) =
      (parseStr r).map (fun p => (Char.ofNat n :: p.1, p.2)) := by
  by_cases hr : ∃ e f g k r', r = '\\' :: 'u' :: e :: f :: g :: k :: r'
  · obtain ⟨e, f, g, k, r', rfl⟩ := hr
    rw [parseStr.eq_3]
    simp only [h]
    rw [if_neg (by omega), if_neg (by omega)]
    cases parseStr ('\\' :: 'u' :: e :: f :: g :: k :: r') <;> rfl
  · rw [parseStr.eq_4 _ _ _ _ _ (by intros; apply hr; simp_all)]
    simp only [h]
    rw [if_neg hn]
    cases parseStr r <;> rfl

theorem parseStr_uu (a b c d e f g k : Char) (n m : Nat) (r : List Char)
    (h : hex4Val a b c d = some n) (h' : hex4Val e f g k = some m)
    (hn : 55296 ≤ n ∧ n < 56320) (hm : 56320 ≤ m ∧ m < 57344) :
    parseStr ('\\' :: 'u' :: a :: b :: c :: d :: '\\' :: 'u' :: e :: f :: g :: k :: r) =
      (parseStr r).map
        (fun p => (Char.ofNat (65536 + (n - 55296) * 1024 + (m - 56320)) :: p.1, p.2)) := by
  rw [parseStr.eq_3]
  simp only [h, h']
  rw [if_pos hn, if_pos hm]
  cases parseStr r <;> rfl

theorem parseStr_esc (c x : Char) (r : List Char) (hc : c ≠ 'u')
    (h : (if c = '"' then some '"' else if c = '\\' then some '\\' else if c = '/' then some '/'
      else if c = 'b' then some (Char.ofNat 8) else if c = 'f' then some (Char.ofNat 12)
      else if c = 'n' then some '\n' else if c = 'r' then some '\r'
      else if c = 't' then some '\t' else none) = some x) :
    parseStr ('\\' :: c :: r) = (parseStr r).map (fun p => (x :: p.1, p.2)) := by
  rw [parseStr.eq_5 _ _ (by intros; simp_all) (by intros; simp_all)]
  rw [h]
  cases parseStr r <;> rfl

theorem parseStr_plain (c : Char) (r : List Char) (hc : ¬ c.toNat < 32) (h1 : c ≠ '\\')
    (h2 : c ≠ '"') : parseStr (c :: r) = (parseStr r).map (fun p => (c :: p.1, p.2)) := by
  rw [parseStr.eq_6 _ _ (by simpa using h2) (by intros; simp_all) (by intros; simp_all)
    (by intros; simp_all)]
  rw [if_neg (by simp [h1]; omega)]
  cases parseStr r <;> rfl

theorem char_ofNat_toNat (c : Char) : Char.ofNat c.toNat = c := by
  simp

theorem char_toNat_valid (c : Char) :
    c.toNat < 55296 ∨ (57344 ≤ c.toNat ∧ c.toNat < 1114112) := by
  have := c.valid
  simp only [UInt32.isValidChar, Nat.isValidChar] at this
  have h : c.toNat = c.val.toNat := rfl
  omega

theorem parseStr_escape (c : Char) (r : List Char) :
    parseStr (jsonEscape c ++ r) = (parseStr r).map (fun p => (c :: p.1, p.2)) := by
  have hv := char_toNat_valid c
  unfold jsonEscape
  split
  · subst c; exact parseStr_esc _ _ _ (by decide) (by decide)
  split
  · subst c; exact parseStr_esc _ _ _ (by decide) (by decide)
  split
  · subst c; exact parseStr_esc _ _ _ (by decide) (by decide)
  split
  · subst c; exact parseStr_esc _ _ _ (by decide) (by decide)
  split
  · subst c; exact parseStr_esc _ _ _ (by decide) (by decide)
  split
  · subst c; exact parseStr_esc _ _ _ (by decide) (by decide)
  split
  · subst c; exact parseStr_esc _ _ _ (by decide) (by decide)
  split
  · rename_i h1 h2 _ _ _ _ _ h
    exact parseStr_plain c r (by omega) h2 h1
  split
  · rename_i h
    have := parseStr_u _ _ _ _ _ r (hex4Val_hex4 c.toNat h) (by omega)
    rw [char_ofNat_toNat] at this
    exact this
  · rename_i h
    have hlt : (c.toNat - 65536) / 1024 < 1024 := by omega
    have := parseStr_uu _ _ _ _ _ _ _ _ _ _ r
      (hex4Val_hex4 (55296 + (c.toNat - 65536) / 1024) (by omega))
      (hex4Val_hex4 (56320 + (c.toNat - 65536) % 1024) (by omega)) (by omega) (by omega)
    have e : 65536 + (55296 + (c.toNat - 65536) / 1024 - 55296) * 1024 +
        (56320 + (c.toNat - 65536) % 1024 - 56320) = c.toNat := by omega
    rw [e, char_ofNat_toNat] at this
    exact this

theorem parseStr_jsonStr (s : List Char) (r : List Char) :
    parseStr (s.flatMap jsonEscape ++ '"' :: r) = some (s, r) := by
  induction s with
  | nil => simp [parseStr]
  | cons c s ih =>
    rw [List.flatMap_cons, List.append_assoc, parseStr_escape, ih]; rfl

/-! ### Numbers -/

theorem isDig_ofNat (n : Nat) (h : n < 10) :
    isDig (Char.ofNat (48 + n)) = true ∧ (Char.ofNat (48 + n)).toNat - 48 = n := by
  have : ∀ n : Fin 10, isDig (Char.ofNat (48 + n.val)) = true ∧
      (Char.ofNat (48 + n.val)).toNat - 48 = n.val := by decide
  exact this ⟨n, h⟩

theorem natDigits_spec (n : Nat) :
    (∀ c ∈ natDigits n, isDig c = true) ∧ digitsVal (natDigits n) = n ∧
      ∃ c l, natDigits n = c :: l ∧ (c = '0' → n = 0 ∧ l = []) := by
  induction n using natDigits.induct with
  | case1 n h =>
    rw [natDigits, dif_pos h]
    refine ⟨?_, ?_, _, _, rfl, ?_⟩
    · simpa using (isDig_ofNat n h).1
    · simpa [digitsVal] using (isDig_ofNat n h).2
    · intro hc
      have := (isDig_ofNat n h).2
      rw [hc] at this
      exact ⟨this.symm, rfl⟩
  | case2 n h ih =>
    obtain ⟨h1, h2, c, l, h3, h4⟩ := ih
    rw [natDigits, dif_neg h]
    have hm := isDig_ofNat (n % 10) (Nat.mod_lt _ (by decide))
    refine ⟨?_, ?_, c, l ++ [_], by rw [h3]; rfl, ?_⟩
    · intro x hx
      rcases List.mem_append.mp hx with hx | hx
      · exact h1 x hx
      · rw [List.mem_singleton] at hx; subst hx; exact hm.1
    · unfold digitsVal at *
      rw [List.foldl_append, h2]
      simp only [List.foldl_cons, List.foldl_nil, hm.2]
      omega
    · intro hc
      have := h4 hc
      omega

/-- What may follow a printed value: nothing, or a delimiter. -/
def JStop (r : List Char) : Prop :=
  r = [] ∨ ∃ c r', r = c :: r' ∧ (c = ',' ∨ c = ']' ∨ c = '}')

theorem takeWhile_append_stop {p : Char → Bool} (l r : List Char) (h : ∀ c ∈ l, p c = true)
    (hr : ∀ c r', r = c :: r' → p c = false) :
    (l ++ r).takeWhile p = l ∧ (l ++ r).dropWhile p = r := by
  induction l with
  | nil =>
    cases r with
    | nil => simp
    | cons c r => simp [hr c r rfl]
  | cons c l ih =>
    have := ih (fun x hx => h x (by simp [hx]))
    simp [h c (by simp), this]

theorem JStop.not_dig {r : List Char} (h : JStop r) : ∀ c r', r = c :: r' → isDig c = false := by
  intro c r' e
  rcases h with h | ⟨c', r'', h, h'⟩
  · simp_all
  · rw [e] at h; simp only [List.cons.injEq] at h; obtain ⟨rfl, -⟩ := h
    rcases h' with rfl | rfl | rfl <;> decide

theorem JStop.frac {r : List Char} (h : JStop r) : parseFrac r = ([], r) := by
  rcases h with rfl | ⟨c, r', rfl, rfl | rfl | rfl⟩ <;> rfl

theorem JStop.exp {r : List Char} (h : JStop r) : parseExp r = ([], r) := by
  rcases h with rfl | ⟨c, r', rfl, rfl | rfl | rfl⟩ <;> rfl

theorem parseNum_natDigits (neg : Bool) (n : Nat) (r : List Char) (hr : JStop r) :
    parseNum neg (natDigits n ++ r) =
      some (.int (if neg then -(n : Int) else n), r) := by
  obtain ⟨h1, h2, c, l, h3, h4⟩ := natDigits_spec n
  have ht := takeWhile_append_stop (natDigits n) r h1 hr.not_dig
  rw [h3] at ht
  unfold parseNum
  rw [h3, List.cons_append]
  rw [List.cons_append] at ht
  simp only []
  rw [if_pos (h1 c (by simp [h3]))]
  by_cases hc : c = '0'
  · obtain ⟨rfl, rfl⟩ := h4 hc
    subst hc
    simp [hr.frac, hr.exp, digitsVal]
  · simp only [hc, if_false, ht.1, ht.2, hr.frac, hr.exp]
    rw [← h3, h2]
    simp

theorem digit_head (n : Nat) : ∃ c l, natDigits n = c :: l ∧ isDig c = true := by
  obtain ⟨h1, -, c, l, h3, -⟩ := natDigits_spec n
  exact ⟨c, l, h3, h1 c (by simp [h3])⟩

theorem stripPrefix_ne {a b : Char} {p l : List Char} (h : b ≠ a) :
    stripPrefix (a :: p) (b :: l) = none := by
  simp [stripPrefix, Ne.symm h]

theorem isDig_ne {c : Char} (h : isDig c = true) (d : Char) (hd : isDig d = false) : c ≠ d := by
  rintro rfl; simp_all

theorem parseAtom_intDigits (i : Int) (r : List Char) (hr : JStop r) :
    parseAtom (intDigits i ++ r) = some (.int i, r) := by
  obtain ⟨c, l, h, hc⟩ := digit_head i.natAbs
  have hn := fun neg => parseNum_natDigits neg i.natAbs r hr
  unfold intDigits
  split
  · rename_i hi
    unfold parseAtom
    rw [show "null".toList = 'n' :: ['u', 'l', 'l'] from by decide,
      show "true".toList = 't' :: ['r', 'u', 'e'] from by decide,
      show "false".toList = 'f' :: ['a', 'l', 's', 'e'] from by decide,
      show "NaN".toList = 'N' :: ['a', 'N'] from by decide,
      show "Infinity".toList = 'I' :: ['n', 'f', 'i', 'n', 'i', 't', 'y'] from by decide,
      show "-Infinity".toList = '-' :: 'I' :: ['n', 'f', 'i', 'n', 'i', 't', 'y'] from by decide]
    simp only [List.cons_append]
    rw [stripPrefix_ne (by decide), stripPrefix_ne (by decide), stripPrefix_ne (by decide),
      stripPrefix_ne (by decide), stripPrefix_ne (by decide)]
    have : stripPrefix ('-' :: 'I' :: ['n', 'f', 'i', 'n', 'i', 't', 'y'])
        ('-' :: (natDigits i.natAbs ++ r)) = none := by
      rw [h]
      have : c ≠ 'I' := isDig_ne hc _ (by decide)
      simp [stripPrefix, Ne.symm this]
    rw [this]
    simp only []
    rw [hn true]
    simp only [if_true]
    congr 3
    omega
  · rename_i hi
    have hh := hn false
    unfold parseAtom
    rw [show "null".toList = 'n' :: ['u', 'l', 'l'] from by decide,
      show "true".toList = 't' :: ['r', 'u', 'e'] from by decide,
      show "false".toList = 'f' :: ['a', 'l', 's', 'e'] from by decide,
      show "NaN".toList = 'N' :: ['a', 'N'] from by decide,
      show "Infinity".toList = 'I' :: ['n', 'f', 'i', 'n', 'i', 't', 'y'] from by decide,
      show "-Infinity".toList = '-' :: 'I' :: ['n', 'f', 'i', 'n', 'i', 't', 'y'] from by decide]
    rw [h] at hh ⊢
    simp only [List.cons_append] at hh ⊢
    rw [stripPrefix_ne (isDig_ne hc _ (by decide)), stripPrefix_ne (isDig_ne hc _ (by decide)),
      stripPrefix_ne (isDig_ne hc _ (by decide)), stripPrefix_ne (isDig_ne hc _ (by decide)),
      stripPrefix_ne (isDig_ne hc _ (by decide)), stripPrefix_ne (isDig_ne hc _ (by decide))]
    have hne : c ≠ '-' := isDig_ne hc _ (by decide)
    simp only []
    split
    · rename_i heq; simp only [List.cons.injEq] at heq; exact absurd heq.1 hne
    · rw [hh]
      simp only [Bool.false_eq_true, if_false]
      congr 3
      omega

/-! ### The round trip -/

mutual
theorem dumpV_ok (is ks : List Char) : ∀ v : PyVal, v.jsonable = true →
    ∃ out, dumpV is ks v = .ok out
  | .none, _ => ⟨_, rfl⟩
  | .bool _, _ => ⟨_, rfl⟩
  | .int _, _ => ⟨_, rfl⟩
  | .str _, _ => ⟨_, rfl⟩
  | .float _, h => by simp [PyVal.jsonable] at h
  | .bytes _, h => by simp [PyVal.jsonable] at h
  | .list [], _ => ⟨_, rfl⟩
  | .list (v :: l), h => by
    simp only [PyVal.jsonable, PyVal.jsonableL, Bool.and_eq_true] at h
    obtain ⟨a, ha⟩ := dumpV_ok is ks v h.1
    obtain ⟨b, hb⟩ := dumpL_ok is ks l h.2
    exact ⟨'[' :: a ++ b ++ [']'], by simp [dumpV, ha, hb, Bind.bind, Except.bind]⟩
  | .dict [], _ => ⟨_, rfl⟩
  | .dict ((k, v) :: d), h => by
    simp only [PyVal.jsonable, PyVal.jsonableD, Bool.and_eq_true] at h
    obtain ⟨a, ha⟩ := dumpV_ok is ks v h.2.1
    obtain ⟨b, hb⟩ := dumpD_ok is ks d h.2.2
    exact ⟨'{' :: jsonStr k ++ ks ++ a ++ b ++ ['}'],
      by simp [dumpV, ha, hb, Bind.bind, Except.bind]⟩
theorem dumpL_ok (is ks : List Char) : ∀ l : List PyVal, PyVal.jsonableL l = true →
    ∃ out, dumpL is ks l = .ok out
  | [], _ => ⟨_, rfl⟩
  | v :: l, h => by
    simp only [PyVal.jsonableL, Bool.and_eq_true] at h
    obtain ⟨a, ha⟩ := dumpV_ok is ks v h.1
    obtain ⟨b, hb⟩ := dumpL_ok is ks l h.2
    exact ⟨is ++ a ++ b, by simp [dumpL, ha, hb, Bind.bind, Except.bind]⟩
theorem dumpD_ok (is ks : List Char) : ∀ l : List (String × PyVal), PyVal.jsonableD l = true →
    ∃ out, dumpD is ks l = .ok out
  | [], _ => ⟨_, rfl⟩
  | (k, v) :: l, h => by
    simp only [PyVal.jsonableD, Bool.and_eq_true] at h
    obtain ⟨a, ha⟩ := dumpV_ok is ks v h.1
    obtain ⟨b, hb⟩ := dumpD_ok is ks l h.2
    exact ⟨is ++ jsonStr k ++ ks ++ a ++ b, by simp [dumpD, ha, hb, Bind.bind, Except.bind]⟩
end

/-- Printed values begin with a character that is no white space and no closing bracket. -/
theorem dumpV_head (is ks : List Char) (v : PyVal) (hv : v.jsonable = true) (out : List Char)
    (h : dumpV is ks v = .ok out) :
    ∃ c l, out = c :: l ∧ isWs c = false ∧ c ≠ ']' ∧ c ≠ '}' := by
  cases v with
  | none => cases h; exact ⟨'n', _, rfl, by decide⟩
  | bool b => cases b <;> (cases h; exact ⟨_, _, rfl, by decide⟩)
  | int i =>
    cases h
    obtain ⟨c, l, h, hc⟩ := digit_head i.natAbs
    unfold intDigits
    split
    · exact ⟨'-', _, rfl, by decide⟩
    · refine ⟨c, l, h, ?_, isDig_ne hc _ (by decide), isDig_ne hc _ (by decide)⟩
      have h1 := isDig_ne hc ' ' (by decide)
      have h2 := isDig_ne hc '\t' (by decide)
      have h3 := isDig_ne hc '\n' (by decide)
      have h4 := isDig_ne hc '\r' (by decide)
      simp [isWs, h1, h2, h3, h4]
  | float t => simp [PyVal.jsonable] at hv
  | str s => cases h; exact ⟨'"', _, rfl, by decide⟩
  | bytes b => simp [PyVal.jsonable] at hv
  | list l =>
    cases l with
    | nil => cases h; exact ⟨'[', _, rfl, by decide⟩
    | cons v l =>
      simp only [dumpV, Bind.bind, Except.bind] at h
      split at h
      · simp at h
      split at h
      · simp at h
      cases h; exact ⟨'[', _, rfl, by decide⟩
  | dict d =>
    cases d with
    | nil => cases h; exact ⟨'{', _, rfl, by decide⟩
    | cons kv d =>
      obtain ⟨k, v⟩ := kv
      simp only [dumpV, Bind.bind, Except.bind] at h
      split at h
      · simp at h
      split at h
      · simp at h
      cases h; exact ⟨'{', _, rfl, by decide⟩

theorem skipWs_cons {c : Char} {l : List Char} (h : isWs c = false) : skipWs (c :: l) = c :: l := by
  simp [skipWs, h]

theorem skipWs_append {w l : List Char} (h : ∀ c ∈ w, isWs c = true) :
    skipWs (w ++ l) = skipWs l := by
  induction w with
  | nil => rfl
  | cons c w ih =>
    have := ih (fun x hx => h x (by simp [hx]))
    simp only [skipWs, List.cons_append] at *
    rw [List.dropWhile_cons, if_pos (h c (by simp)), this]

theorem PyDict.set_not_mem (d : PyDict) (k : String) (v : PyVal) (h : k ∉ d.map Prod.fst) :
    PyDict.set d k v = d ++ [(k, v)] := by
  induction d with
  | nil => rfl
  | cons kv d ih =>
    obtain ⟨k', v'⟩ := kv
    simp only [List.map_cons, List.mem_cons, not_or] at h
    rw [PyDict.set, if_neg (Ne.symm h.1), ih h.2]; rfl

theorem foldl_set_nodup (e d : PyDict) (h : ((d ++ e).map Prod.fst).Nodup) :
    e.foldl (fun d kv => PyDict.set d kv.1 kv.2) d = d ++ e := by
  induction e generalizing d with
  | nil => simp
  | cons kv e ih =>
    rw [List.foldl_cons, PyDict.set_not_mem, ih]
    · simp
    · simpa using h
    · rw [List.map_append, List.nodup_append] at h
      intro hm
      exact h.2.2 _ hm kv.1 (by simp) rfl

theorem dictOfPairs_nodup (d : PyDict) (h : (d.map Prod.fst).Nodup) : dictOfPairs d = d := by
  have := foldl_set_nodup d [] (by simpa using h)
  simpa [dictOfPairs] using this

mutual
theorem parseV_dumpV (w1 w2 : List Char) (h1 : ∀ c ∈ w1, isWs c = true)
    (h2 : ∀ c ∈ w2, isWs c = true) : ∀ (v : PyVal), v.jsonable = true → ∀ out,
    dumpV (',' :: w1) (':' :: w2) v = .ok out → ∀ (f : Nat) (r : List Char), out.length < f →
    JStop r → parseV f (out ++ r) = some (v, r)
  | .none, _, out, h, f, r, hf, _ => by
    cases h
    cases f with
    | zero => omega
    | succ f => rfl
  | .bool b, _, out, h, f, r, hf, _ => by
    cases f with
    | zero => omega
    | succ f => cases b <;> (cases h; rfl)
  | .int i, _, out, h, f, r, hf, hr => by
    cases h
    cases f with
    | zero => omega
    | succ f =>
      have ha := parseAtom_intDigits i r hr
      have : ∃ c l, intDigits i ++ r = c :: l ∧ c ≠ '"' ∧ c ≠ '[' ∧ c ≠ '{' := by
        obtain ⟨c, l, h, hc⟩ := digit_head i.natAbs
        unfold intDigits
        split
        · exact ⟨'-', _, rfl, by decide⟩
        · rw [h]
          exact ⟨c, _, rfl, isDig_ne hc _ (by decide), isDig_ne hc _ (by decide),
            isDig_ne hc _ (by decide)⟩
      obtain ⟨c, l, hl, n1, n2, n3⟩ := this
      rw [hl] at ha ⊢
      unfold parseV
      split
      · rename_i heq; simp only [List.cons.injEq] at heq; exact absurd heq.1 n1
      · rename_i heq; simp only [List.cons.injEq] at heq; exact absurd heq.1 n2
      · rename_i heq; simp only [List.cons.injEq] at heq; exact absurd heq.1 n3
      · exact ha
  | .str s, _, out, h, f, r, hf, _ => by
    cases h
    cases f with
    | zero => omega
    | succ f =>
      unfold jsonStr parseV
      simp only [List.cons_append, List.append_assoc, List.nil_append]
      rw [parseStr_jsonStr]
      simp
  | .float _, hv, _, _, _, _, _, _ => by simp [PyVal.jsonable] at hv
  | .bytes _, hv, _, _, _, _, _, _ => by simp [PyVal.jsonable] at hv
  | .list [], _, out, h, f, r, hf, _ => by
    cases h
    cases f with
    | zero => omega
    | succ f => rfl
  | .list (v :: l), hv, out, h, f, r, hf, _ => by
    simp only [PyVal.jsonable, PyVal.jsonableL, Bool.and_eq_true] at hv
    obtain ⟨a, ha⟩ := dumpV_ok (',' :: w1) (':' :: w2) v hv.1
    obtain ⟨b, hb⟩ := dumpL_ok (',' :: w1) (':' :: w2) l hv.2
    have ihv := parseV_dumpV w1 w2 h1 h2 v hv.1 a ha
    have ihl := parseL_dumpL w1 w2 h1 h2 l hv.2 b hb v a ihv
    obtain ⟨c, l', rfl, hc1, hc2, -⟩ := dumpV_head _ _ v hv.1 _ ha
    simp only [dumpV, ha, hb, Bind.bind, Except.bind, Except.ok.injEq] at h
    subst h
    cases f with
    | zero => omega
    | succ f =>
      unfold parseV
      simp only [List.cons_append, List.append_assoc, List.nil_append]
      rw [skipWs_cons hc1]
      simp only [List.length_append, List.length_cons, List.length_nil] at hf ihl
      have := ihl f r (by omega)
      simp only [List.cons_append, List.append_assoc] at this
      split
      · rename_i heq; simp only [List.cons.injEq] at heq; exact absurd heq.1 hc2
      · rw [this]; rfl
  | .dict [], _, out, h, f, r, hf, _ => by
    cases h
    cases f with
    | zero => omega
    | succ f => rfl
  | .dict ((k, v) :: d), hv, out, h, f, r, hf, _ => by
    simp only [PyVal.jsonable, PyVal.jsonableD, Bool.and_eq_true, decide_eq_true_eq] at hv
    obtain ⟨a, ha⟩ := dumpV_ok (',' :: w1) (':' :: w2) v hv.2.1
    obtain ⟨b, hb⟩ := dumpD_ok (',' :: w1) (':' :: w2) d hv.2.2
    have ihv := parseV_dumpV w1 w2 h1 h2 v hv.2.1 a ha
    have ihd := parseD_dumpD w1 w2 h1 h2 d hv.2.2 b hb k v a hv.2.1 ha ihv
    simp only [dumpV, ha, hb, Bind.bind, Except.bind, Except.ok.injEq] at h
    subst h
    cases f with
    | zero => omega
    | succ f =>
      unfold parseV
      simp only [List.length_append, List.length_cons, List.length_nil] at hf
      have := ihd f r (by omega)
      unfold jsonStr at this ⊢
      simp only [List.cons_append, List.append_assoc, List.nil_append] at this ⊢
      rw [skipWs_cons (by decide)]
      show (parseD f _).bind _ = _
      rw [this]
      simp only [Option.bind_some]
      rw [dictOfPairs_nodup _ hv.1]
theorem parseL_dumpL (w1 w2 : List Char) (h1 : ∀ c ∈ w1, isWs c = true)
    (h2 : ∀ c ∈ w2, isWs c = true) : ∀ (l : List PyVal), PyVal.jsonableL l = true → ∀ b,
    dumpL (',' :: w1) (':' :: w2) l = .ok b → ∀ (v : PyVal) (a : List Char),
    (∀ (f : Nat) (r : List Char), a.length < f → JStop r → parseV f (a ++ r) = some (v, r)) →
    ∀ (f : Nat) (r : List Char), a.length + b.length + 1 < f →
      parseL f (a ++ b ++ ']' :: r) = some (v :: l, r)
  | [], _, b, hb, v, a, ih, f, r, hf => by
    cases hb
    cases f with
    | zero => omega
    | succ f =>
      unfold parseL
      rw [List.append_nil, ih f _ (by simp at hf; omega) (.inr ⟨_, _, rfl, by simp⟩)]
      simp only [Option.bind_eq_bind, Option.bind_some]
      rw [skipWs_cons (by decide)]
      simp
  | v' :: l, hl, b, hb, v, a, ih, f, r, hf => by
    simp only [PyVal.jsonableL, Bool.and_eq_true] at hl
    obtain ⟨a', ha'⟩ := dumpV_ok (',' :: w1) (':' :: w2) v' hl.1
    obtain ⟨b', hb'⟩ := dumpL_ok (',' :: w1) (':' :: w2) l hl.2
    have ihv := parseV_dumpV w1 w2 h1 h2 v' hl.1 a' ha'
    have ihl := parseL_dumpL w1 w2 h1 h2 l hl.2 b' hb' v' a' ihv
    obtain ⟨c, l', rfl, hc1, -, -⟩ := dumpV_head _ _ v' hl.1 _ ha'
    simp only [dumpL, ha', hb', Bind.bind, Except.bind, Except.ok.injEq] at hb
    subst hb
    simp only [List.length_append, List.length_cons] at hf ihl
    cases f with
    | zero => omega
    | succ f =>
      unfold parseL
      simp only [List.append_assoc, List.cons_append]
      rw [ih f _ (by omega) (.inr ⟨_, _, rfl, by simp⟩)]
      simp only [Option.bind_eq_bind, Option.bind_some]
      rw [skipWs_cons (by decide)]
      simp only []
      rw [skipWs_append h1, skipWs_cons hc1]
      have := ihl f r (by omega)
      simp only [List.cons_append, List.append_assoc] at this
      rw [this]; rfl
theorem parseD_dumpD (w1 w2 : List Char) (h1 : ∀ c ∈ w1, isWs c = true)
    (h2 : ∀ c ∈ w2, isWs c = true) : ∀ (d : List (String × PyVal)), PyVal.jsonableD d = true →
    ∀ b, dumpD (',' :: w1) (':' :: w2) d = .ok b → ∀ (k : String) (v : PyVal) (a : List Char),
    v.jsonable = true → dumpV (',' :: w1) (':' :: w2) v = .ok a →
    (∀ (f : Nat) (r : List Char), a.length < f → JStop r → parseV f (a ++ r) = some (v, r)) →
    ∀ (f : Nat) (r : List Char), a.length + b.length + 1 < f →
      parseD f (jsonStr k ++ ((':' :: w2) ++ (a ++ (b ++ '}' :: r)))) = some ((k, v) :: d, r)
  | [], _, b, hb, k, v, a, hv, ha, ih, f, r, hf => by
    cases hb
    cases f with
    | zero => omega
    | succ f =>
      obtain ⟨c, l', rfl, hc1, -, -⟩ := dumpV_head _ _ v hv _ ha
      unfold parseD jsonStr
      simp only [List.cons_append, List.append_assoc, List.nil_append]
      rw [parseStr_jsonStr]
      simp only [Option.bind_eq_bind, Option.bind_some]
      rw [skipWs_cons (by decide)]
      simp only []
      rw [skipWs_append h2, skipWs_cons hc1]
      have := ih f ('}' :: r) (by simp at hf ⊢; omega) (.inr ⟨_, _, rfl, by simp⟩)
      simp only [List.cons_append] at this
      rw [this]
      simp only [Option.bind_some]
      rw [skipWs_cons (by decide)]
      simp
  | (k', v') :: d, hd, b, hb, k, v, a, hv, ha, ih, f, r, hf => by
    simp only [PyVal.jsonableD, Bool.and_eq_true] at hd
    obtain ⟨a', ha'⟩ := dumpV_ok (',' :: w1) (':' :: w2) v' hd.1
    obtain ⟨b', hb'⟩ := dumpD_ok (',' :: w1) (':' :: w2) d hd.2
    have ihv := parseV_dumpV w1 w2 h1 h2 v' hd.1 a' ha'
    have ihd := parseD_dumpD w1 w2 h1 h2 d hd.2 b' hb' k' v' a' hd.1 ha' ihv
    obtain ⟨c, l', rfl, hc1, -, -⟩ := dumpV_head _ _ v hv _ ha
    simp only [dumpD, ha', hb', Bind.bind, Except.bind, Except.ok.injEq] at hb
    subst hb
    simp only [List.length_append, List.length_cons] at hf
    cases f with
    | zero => omega
    | succ f =>
      unfold parseD
      unfold jsonStr at ihd ⊢
      simp only [List.cons_append, List.append_assoc, List.nil_append] at ihd ⊢
      rw [parseStr_jsonStr]
      simp only [Option.bind_eq_bind, Option.bind_some]
      rw [skipWs_cons (by decide)]
      simp only []
      rw [skipWs_append h2, skipWs_cons hc1]
      have := ih f (',' :: (w1 ++ '"' :: (k'.toList.flatMap jsonEscape ++ '"' :: ':' :: (w2 ++
        (a' ++ (b' ++ '}' :: r)))))) (by simp; omega) (.inr ⟨_, _, rfl, by simp⟩)
      simp only [List.cons_append] at this
      rw [this]
      simp only [Option.bind_some]
      rw [skipWs_cons (by decide)]
      simp only []
      rw [skipWs_append h1, skipWs_cons (by decide), ihd f r (by omega)]
      simp
end

theorem jsonLoads_of_dumpV (w1 w2 : List Char) (h1 : ∀ c ∈ w1, isWs c = true)
    (h2 : ∀ c ∈ w2, isWs c = true) (v : PyVal) (hv : v.jsonable = true) (out : List Char)
    (h : dumpV (',' :: w1) (':' :: w2) v = .ok out) : jsonLoads (String.ofList out) = .ok v := by
  obtain ⟨c, l, rfl, hc, -⟩ := dumpV_head _ _ v hv _ h
  unfold jsonLoads
  rw [String.toList_ofList, skipWs_cons hc]
  have := parseV_dumpV w1 w2 h1 h2 v hv _ h ((c :: l).length + 1) [] (by simp) (.inl rfl)
  rw [List.append_nil] at this
  simp only []
  rw [this]
  rfl

/-- `json.loads(json.dumps(v, separators=(",", ":"))) == v`, with identical representation. -/
theorem jsonLoads_dumpsC (v : PyVal) (hv : v.jsonable = true) :
    ∃ s, jsonDumpsC v = .ok s ∧ jsonLoads s = .ok v := by
  obtain ⟨out, h⟩ := dumpV_ok [','] [':'] v hv
  exact ⟨String.ofList out, by simp [jsonDumpsC, h, Except.map],
    jsonLoads_of_dumpV [] [] (by simp) (by simp) v hv out h⟩

/-- `json.loads(json.dumps(v)) == v`. -/
theorem jsonLoads_dumps (v : PyVal) (hv : v.jsonable = true) :
    ∃ s, jsonDumps v = .ok s ∧ jsonLoads s = .ok v := by
  obtain ⟨out, h⟩ := dumpV_ok [',', ' '] [':', ' '] v hv
  exact ⟨String.ofList out, by simp [jsonDumps, h, Except.map],
    jsonLoads_of_dumpV [' '] [' '] (by simp [isWs]) (by simp [isWs]) v hv out h⟩

theorem jsonLoads_error {s : String} {e : Exc} (h : jsonLoads s = .error e) :
    e = .jsonDecodeError := by
  unfold jsonLoads at h
  simp only [] at h
  split at h
  · split at h <;> simp at h; exact h.symm
  · simp at h; exact h.symm

end Verif
