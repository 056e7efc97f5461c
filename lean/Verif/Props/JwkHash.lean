import Verif.Props.JwkMore
/-
Properties C31 (thumbprints) and C32 (equality and hashing) of `/repo/src/jwkest/jwk.py`.
-/

namespace Verif
open Spec

/-! ### C31: thumbprint input -/

/-- A double quote. -/
def quoted (s : String) : String := "\"" ++ s ++ "\""

theorem escape_url : ∀ c : UInt8, c ∈ urlAlphabet →
    jsonEscape (Char.ofNat c.toNat) = [Char.ofNat c.toNat] :=
  forall_uint8 (by decide +kernel)

theorem jsonDumps_url {s : String} (h : ∀ c ∈ utf8Encode s, c ∈ urlAlphabet) :
    jsonDumps (.str s) = .ok (quoted s) := by
  obtain ⟨t, ht⟩ := asciiDecode_of_lt (b := utf8Encode s) (fun c hc => (urlAlphabet_lt c (h c hc)).1)
  have hs : s = t := utf8Encode_inj (asciiEncode_utf8 (asciiEncode_decode ht)).1.symm
  have hl : s.toList = (utf8Encode s).map fun c => Char.ofNat c.toNat := by
    unfold asciiDecode at ht
    split at ht
    · simp only [Except.ok.injEq] at ht
      conv_lhs => rw [hs, ← ht]
      exact String.toList_ofList
    · simp at ht
  have he : s.toList.flatMap jsonEscape = s.toList := by
    rw [hl]
    have : ∀ l : Bytes, (∀ c ∈ l, c ∈ urlAlphabet) →
        (l.map fun c => Char.ofNat c.toNat).flatMap jsonEscape =
          l.map fun c => Char.ofNat c.toNat := by
      intro l hl
      induction l with
      | nil => rfl
      | cons c l ih =>
        rw [List.map_cons, List.flatMap_cons, ih (fun x hx => hl x (by simp [hx])),
          escape_url c (hl c (by simp))]
        rfl
    exact this _ h
  simp only [jsonDumps, dumpV, Except.map, jsonStr, he]
  congr 1
  apply String.toList_inj.mp
  simp [quoted]

theorem Spec.UIntText.alpha {n : Nat} {s : String} (h : UIntText n s) :
    ∀ c ∈ utf8Encode s, c ∈ urlAlphabet := h.choose_spec.1.1

theorem quote_split {l l' r r' : List Char} (h1 : ∀ c ∈ l, c ≠ '"') (h2 : ∀ c ∈ l', c ≠ '"')
    (h : l ++ '"' :: r = l' ++ '"' :: r') : l = l' ∧ r = r' := by
  induction l generalizing l' with
  | nil =>
    cases l' with
    | nil => simpa using h
    | cons c l' =>
      simp only [List.nil_append, List.cons_append, List.cons.injEq] at h
      exact absurd h.1.symm (h2 c (by simp))
  | cons c l ih =>
    cases l' with
    | nil =>
      simp only [List.nil_append, List.cons_append, List.cons.injEq] at h
      exact absurd h.1 (h1 c (by simp))
    | cons c' l' =>
      simp only [List.cons_append, List.cons.injEq] at h
      obtain ⟨e1, e2⟩ := ih (fun x hx => h1 x (by simp [hx])) (fun x hx => h2 x (by simp [hx])) h.2
      exact ⟨by rw [h.1, e1], e2⟩

theorem url_no_quote {s : String} (h : ∀ c ∈ utf8Encode s, c ∈ urlAlphabet) :
    ∀ c ∈ s.toList, c ≠ '"' := by
  rintro c hc rfl
  have : (34 : UInt8) ∈ utf8Encode s := by
    unfold utf8Encode
    rw [List.mem_flatMap]
    exact ⟨_, hc, by decide⟩
  exact absurd (h 34 this) (by decide +kernel)

/-- RFC 7638 section 3: the hash input of an RSA key. -/
def rfcRsa (e n : String) : String :=
  "{\"e\":" ++ quoted e ++ ",\"kty\":\"RSA\",\"n\":" ++ quoted n ++ "}"

/-- … of a symmetric key. -/
def rfcOct (k : String) : String := "{\"k\":" ++ quoted k ++ ",\"kty\":\"oct\"}"

/-- … of an EC key. -/
def rfcEc (crv x y : String) : String :=
  "{\"crv\":" ++ quoted crv ++ ",\"kty\":\"EC\",\"x\":" ++ quoted x ++ ",\"y\":" ++ quoted y ++ "}"

/-- What the code hashes for an EC key. -/
def codeEc (crv x y : String) : String :=
  "{\"crv\":" ++ quoted crv ++ ",\"x\":" ++ quoted x ++ ",\"y\":" ++ quoted y ++ "}"

/-- The thumbprint input of an RSA key is that of RFC 7638. -/
theorem C31_rsa (k : Key) (m : RsaMat) (N : RsaNums) (hm : k.mat = .rsa m) (hN : RsaHolds m N)
    (hkty : k.kty = .str "RSA") (hk : k.key.truthy = true) :
    ∃ e n, UIntText N.e e ∧ UIntText N.n n ∧ k.thumbInput = .ok (rfcRsa e n) := by
  have hser : k.serialize false = .ok (.dict (optSet (optSet k.common "n" (some N.n)) "e"
      (some N.e))) := by
    simp only [Key.serialize, hm, rsaSerialize, hk, Bool.true_eq_false, if_false,
      Bind.bind, Except.bind, serLong_holds hN.n, serLong_holds hN.e, Except.map,
      Bool.false_eq_true]
  have he := (uintTxt_spec (hN.e.pos _ rfl)).1
  have hn := (uintTxt_spec (hN.n.pos _ rfl)).1
  refine ⟨_, _, he, hn, ?_⟩
  have hcl : classOf k ≠ .sym := by simp [classOf, hm]
  have hR : jsonDumps (.str "RSA") = .ok "\"RSA\"" := by decide +kernel
  simp only [Key.thumbInput, serializeDflt_of_ne hcl, hser, Bind.bind, Except.bind, Key.required, hm,
    List.mapM_cons, List.mapM_nil, tpElem, get?_optSet, get?_common, Pure.pure, Except.pure]
  simp only [String.reduceEq, Option.isSome_some, and_true, if_true, if_false, false_and,
    Option.map_some, jsonDumps_url he.alpha, jsonDumps_url hn.alpha, hkty, hR, List.filterMap_cons,
    List.filterMap_nil, id, joinComma]
  congr 1
  apply String.toList_inj.mp
  simp [rfcRsa]

/-- The thumbprint input of a symmetric key is that of RFC 7638. -/
theorem C31_sym (k : Key) (kk : PyVal) (secret : Bytes) (hm : k.mat = .sym kk)
    (hk : k.key = .val (.bytes secret)) (hkty : k.kty = .str "oct") :
    ∃ s, IsB64Url secret (utf8Encode s) ∧ k.thumbInput = .ok (rfcOct s) := by
  obtain ⟨t, ht1⟩ := asciiDecode_of_lt (b := b64e secret)
    (fun c hc => (urlAlphabet_lt c ((C02_rfc4648 secret).1 c hc)).1)
  have e1 := asciiEncode_utf8 (asciiEncode_decode ht1)
  have hu : asUnicode (b64e secret) = .str t := by rw [← e1.1, asUnicode_encode]
  have hB : IsB64Url secret (utf8Encode t) := by rw [e1.1]; exact C02_rfc4648 secret
  refine ⟨t, hB, ?_⟩
  have hser : k.serializeDflt = .ok (.dict (PyDict.set k.common "k" (.str t))) := by
    simp only [Key.serializeDflt, Key.serialize, hm, symSerialize, hk, pyBytes, Bind.bind,
      Except.bind, Except.map, hu]
  have hR : jsonDumps (.str "oct") = .ok "\"oct\"" := by decide +kernel
  simp only [Key.thumbInput, hser, Bind.bind, Except.bind, Key.required, hm,
    List.mapM_cons, List.mapM_nil, tpElem, PyDict.get?_set, get?_common, Pure.pure, Except.pure]
  simp only [String.reduceEq, if_true, if_false, jsonDumps_url hB.1, hkty, hR,
    List.filterMap_cons, List.filterMap_nil, id, joinComma]
  congr 1
  apply String.toList_inj.mp
  simp [rfcOct]

/-- What the thumbprint of an EC key hashes: the RFC 7638 text without its `kty` member. -/
theorem C31_ec (k : Key) (crv x y d : PyVal) (c : NistCurve) (X Y : Nat)
    (hm : k.mat = .ec crv x y d (.curve c)) (hx : Holds x (some X)) (hy : Holds y (some Y))
    (hc : c.name = "P-256" ∨ c.name = "P-384" ∨ c.name = "P-521") :
    ∃ xs ys, UIntText X xs ∧ UIntText Y ys ∧ k.thumbInput = .ok (codeEc c.name xs ys) := by
  have hxs := (uintTxt_spec (hx.pos _ rfl)).1
  have hys := (uintTxt_spec (hy.pos _ rfl)).1
  refine ⟨_, _, hxs, hys, ?_⟩
  have hser : k.serialize false = .ok (.dict (PyDict.set (PyDict.set (PyDict.set k.common "crv"
      (.str c.name)) "x" (.str (uintTxt X))) "y" (.str (uintTxt Y)))) := by
    cases hx with | number hx => cases hy with | number hy =>
    simp only [Key.serialize, hm, ecSerialize, KObj.truthy, Bool.true_eq_false, and_false, if_false,
      Bind.bind, Except.bind, longToBase64Val_pos hx, longToBase64Val_pos hy, Bool.false_eq_true,
      false_and, Except.map]
  have hcl : classOf k ≠ .sym := by simp [classOf, hm]
  have hcn : ∀ b ∈ utf8Encode c.name, b ∈ urlAlphabet := by
    rcases hc with h | h | h <;> rw [h] <;> decide +kernel
  simp only [Key.thumbInput, serializeDflt_of_ne hcl, hser, Bind.bind, Except.bind, Key.required, hm,
    List.mapM_cons, List.mapM_nil, tpElem, PyDict.get?_set, get?_common, Pure.pure, Except.pure]
  simp only [String.reduceEq, if_true, if_false, false_and, jsonDumps_url hxs.alpha,
    jsonDumps_url hys.alpha, jsonDumps_url hcn, List.filterMap_cons,
    List.filterMap_nil, id, joinComma]
  congr 1
  apply String.toList_inj.mp
  simp [codeEc]

/-- … which is never the RFC 7638 text of any EC key. -/
theorem C31_ec_not_rfc (crv x y crv' x' y' : String) (hc : ∀ b ∈ crv.toList, b ≠ '"')
    (hc' : ∀ b ∈ crv'.toList, b ≠ '"') : codeEc crv x y ≠ rfcEc crv' x' y' := by
  intro h
  have h := String.toList_inj.mpr h
  simp only [codeEc, rfcEc, quoted, String.toList_append, List.append_assoc, String.reduceToList,
    List.cons_append, List.nil_append, List.cons.injEq, true_and] at h
  have := (quote_split hc hc' h).2
  simp at this

/-- Two RSA keys have the same thumbprint input exactly when they have the same modulus and
exponent. -/
theorem C31_rsa_injective (a b : Key) (m m' : RsaMat) (N N' : RsaNums) (hma : a.mat = .rsa m)
    (hmb : b.mat = .rsa m') (hN : RsaHolds m N) (hN' : RsaHolds m' N')
    (hta : a.kty = .str "RSA") (htb : b.kty = .str "RSA") (hka : a.key.truthy = true)
    (hkb : b.key.truthy = true) :
    a.thumbInput = b.thumbInput ↔ N.n = N'.n ∧ N.e = N'.e := by
  obtain ⟨e, n, he, hn, ha⟩ := C31_rsa a m N hma hN hta hka
  obtain ⟨e', n', he', hn', hb⟩ := C31_rsa b m' N' hmb hN' htb hkb
  rw [ha, hb]
  constructor
  · intro h
    simp only [Except.ok.injEq] at h
    have h := String.toList_inj.mpr h
    simp only [rfcRsa, quoted, String.toList_append, List.append_assoc, String.reduceToList,
      List.cons_append, List.nil_append, List.cons.injEq, true_and] at h
    obtain ⟨h1, h2⟩ := quote_split (url_no_quote he.alpha) (url_no_quote he'.alpha) h
    simp only [List.cons.injEq, true_and] at h2
    obtain ⟨h3, -⟩ := quote_split (url_no_quote hn.alpha) (url_no_quote hn'.alpha) h2
    have e1 : e = e' := String.toList_inj.mp h1
    have e2 : n = n' := String.toList_inj.mp h3
    subst e1 e2
    exact ⟨hn.inj hn', he.inj he'⟩
  · rintro ⟨h1, h2⟩
    rw [h1] at hn
    rw [h2] at he
    rw [he.unique he', hn.unique hn']

/-- Two symmetric keys have the same thumbprint input exactly when they have the same secret. -/
theorem C31_sym_injective (a b : Key) (kk kk' : PyVal) (s s' : Bytes) (hma : a.mat = .sym kk)
    (hmb : b.mat = .sym kk') (hka : a.key = .val (.bytes s)) (hkb : b.key = .val (.bytes s'))
    (hta : a.kty = .str "oct") (htb : b.kty = .str "oct") :
    a.thumbInput = b.thumbInput ↔ s = s' := by
  obtain ⟨t, ht, ha⟩ := C31_sym a kk s hma hka hta
  obtain ⟨t', ht', hb⟩ := C31_sym b kk' s' hmb hkb htb
  rw [ha, hb]
  constructor
  · intro h
    simp only [Except.ok.injEq] at h
    have h := String.toList_inj.mpr h
    simp only [rfcOct, quoted, String.toList_append, List.append_assoc, String.reduceToList,
      List.cons_append, List.nil_append, List.cons.injEq, true_and] at h
    obtain ⟨h1, -⟩ := quote_split (url_no_quote ht.1) (url_no_quote ht'.1) h
    have e1 : t = t' := String.toList_inj.mp h1
    subst e1
    exact C02_injective _ _ ((C02_unique _ _ ht).symm.trans (C02_unique _ _ ht'))
  · rintro rfl
    have : t = t' := utf8Encode_inj ((C02_unique _ _ ht).trans (C02_unique _ _ ht').symm)
    rw [this]

/-- Two EC keys: same curve name and coordinates. -/
theorem C31_ec_injective (a b : Key) (crv x y d crv' x' y' d' : PyVal) (c c' : NistCurve)
    (X Y X' Y' : Nat) (hma : a.mat = .ec crv x y d (.curve c))
    (hmb : b.mat = .ec crv' x' y' d' (.curve c')) (hx : Holds x (some X)) (hy : Holds y (some Y))
    (hx' : Holds x' (some X')) (hy' : Holds y' (some Y'))
    (hc : c.name = "P-256" ∨ c.name = "P-384" ∨ c.name = "P-521")
    (hc' : c'.name = "P-256" ∨ c'.name = "P-384" ∨ c'.name = "P-521") :
    a.thumbInput = b.thumbInput ↔ c.name = c'.name ∧ X = X' ∧ Y = Y' := by
  obtain ⟨xs, ys, hxs, hys, ha⟩ := C31_ec a crv x y d c X Y hma hx hy hc
  obtain ⟨xs', ys', hxs', hys', hb⟩ := C31_ec b crv' x' y' d' c' X' Y' hmb hx' hy' hc'
  rw [ha, hb]
  have nq : ∀ c : NistCurve, (c.name = "P-256" ∨ c.name = "P-384" ∨ c.name = "P-521") →
      ∀ b ∈ c.name.toList, b ≠ '"' := by
    rintro c (h | h | h) <;> rw [h] <;> decide
  constructor
  · intro h
    simp only [Except.ok.injEq] at h
    have h := String.toList_inj.mpr h
    simp only [codeEc, quoted, String.toList_append, List.append_assoc, String.reduceToList,
      List.cons_append, List.nil_append, List.cons.injEq, true_and] at h
    obtain ⟨h1, h2⟩ := quote_split (nq c hc) (nq c' hc') h
    simp only [List.cons.injEq, true_and] at h2
    obtain ⟨h3, h4⟩ := quote_split (url_no_quote hxs.alpha) (url_no_quote hxs'.alpha) h2
    simp only [List.cons.injEq, true_and] at h4
    obtain ⟨h5, -⟩ := quote_split (url_no_quote hys.alpha) (url_no_quote hys'.alpha) h4
    have e1 : xs = xs' := String.toList_inj.mp h3
    have e2 : ys = ys' := String.toList_inj.mp h5
    subst e1 e2
    exact ⟨String.toList_inj.mp h1, hxs.inj hxs', hys.inj hys'⟩
  · rintro ⟨h1, h2, h3⟩
    rw [h2] at hxs
    rw [h3] at hys
    rw [h1, hxs.unique hxs', hys.unique hys']

/-- Agreement on what the thumbprint may depend on: type and public numbers, or type and secret. -/
inductive SameRequired : Key → Key → Prop
  | rsa {a b : Key} {m m' : RsaMat} (ha : a.mat = .rsa m) (hb : b.mat = .rsa m')
      (hn : m.n = m'.n) (he : m.e = m'.e) (hk : a.key.truthy = b.key.truthy)
      (hl : a.kty = b.kty) : SameRequired a b
  | ec {a b : Key} {crv x y d d' : PyVal} {c : KObj} (ha : a.mat = .ec crv x y d c)
      (hb : b.mat = .ec crv x y d' c) : SameRequired a b
  | sym {a b : Key} {kk kk' : PyVal} (ha : a.mat = .sym kk) (hb : b.mat = .sym kk')
      (hk : a.key = b.key) (hl : a.kty = b.kty) : SameRequired a b
  | plain {a b : Key} (ha : a.mat = .plain) (hb : b.mat = .plain) : SameRequired a b

theorem tpElem_congr {d d' : PyDict} {s : String} (h : PyDict.get? d s = PyDict.get? d' s) :
    tpElem d s = tpElem d' s := by
  unfold tpElem
  rw [h]

/-- `kid`, `use`, `alg`, the certificate attributes, extra members, the cached hash and the private
parts have no influence on the thumbprint (not even on whether it raises). -/
theorem C31_independent (E : Env) (a b : Key) (h : SameRequired a b) (hashFn : String) :
    a.thumbprint E hashFn = b.thumbprint E hashFn := by
  suffices hT : a.thumbInput = b.thumbInput by
    unfold Key.thumbprint
    rw [hT]
  cases h with
  | @rsa m m' ha hb hn he hk hl =>
    simp only [Key.thumbInput, Key.serializeDflt, Key.serialize, ha, hb, rsaSerialize, hn, he, hk,
      Key.required, Bool.false_eq_true, if_false]
    cases hkt : b.key.truthy
    · simp [Except.map, Bind.bind, Except.bind]
    have key : ∀ (f : PyDict → PyDict), (∀ d d' s, PyDict.get? d s = PyDict.get? d' s →
        PyDict.get? (f d) s = PyDict.get? (f d') s) →
        ["e", "kty", "n"].mapM (tpElem (f a.common)) = ["e", "kty", "n"].mapM (tpElem (f b.common)) := by
      intro f hf
      have h1 : tpElem (f a.common) "e" = tpElem (f b.common) "e" :=
        tpElem_congr (hf _ _ _ (by simp [get?_common]))
      have h2 : tpElem (f a.common) "kty" = tpElem (f b.common) "kty" :=
        tpElem_congr (hf _ _ _ (by simp [get?_common, hl]))
      have h3 : tpElem (f a.common) "n" = tpElem (f b.common) "n" :=
        tpElem_congr (hf _ _ _ (by simp [get?_common]))
      simp only [List.mapM_cons, List.mapM_nil, h1, h2, h3]
    simp only [Bool.true_eq_false, if_false]
    unfold serLong
    cases hnt : m'.n.truthy <;> cases het : m'.e.truthy <;>
      cases hnv : longToBase64Val m'.n <;> cases hev : longToBase64Val m'.e <;>
      simp only [Except.map, Bind.bind, Except.bind, if_true, if_false, Bool.false_eq_true]
    all_goals first
      | rw [key (fun d => d) (fun _ _ _ h => h)]
      | rw [key (fun d => PyDict.set d "n" _) (fun _ _ _ h => by simp only [PyDict.get?_set, h])]
      | rw [key (fun d => PyDict.set d "e" _) (fun _ _ _ h => by simp only [PyDict.get?_set, h])]
      | rw [key (fun d => PyDict.set (PyDict.set d "n" _) "e" _)
          (fun _ _ _ h => by simp only [PyDict.get?_set, h])]
  | @ec crv x y d d' c ha hb =>
    simp only [Key.thumbInput, Key.serializeDflt, Key.serialize, ha, hb, ecSerialize,
      Key.required, Bool.false_eq_true, false_and, if_false]
    split
    · simp [Except.map, Bind.bind, Except.bind]
    · cases c with
      | val v => simp [Except.map, Bind.bind, Except.bind]
      | rsa v => simp [Except.map, Bind.bind, Except.bind]
      | curve c =>
        cases hnv : longToBase64Val x <;> cases hev : longToBase64Val y <;>
          simp only [Except.map, Bind.bind, Except.bind]
        simp only [List.mapM_cons, List.mapM_nil, tpElem, PyDict.get?_set, get?_common, String.reduceEq, if_true,
          if_false, false_and]
  | @sym kk kk' ha hb hk hl =>
    simp only [Key.thumbInput, Key.serializeDflt, Key.serialize, ha, hb, symSerialize, hk,
      Key.required]
    cases b.key with
    | rsa v => simp [Except.map, Bind.bind, Except.bind]
    | curve v => simp [Except.map, Bind.bind, Except.bind]
    | val v =>
      cases hp : pyBytes v with
      | error e => simp [hp, Except.map, Bind.bind, Except.bind]
      | ok b =>
        simp only [hp, Except.map, Bind.bind, Except.bind]
        simp only [List.mapM_cons, List.mapM_nil, tpElem, PyDict.get?_set, get?_common, String.reduceEq, if_true,
          if_false, hl]
  | plain ha hb =>
    simp [Key.thumbInput, Key.serializeDflt, Key.serialize, ha, hb, Bind.bind, Except.bind]

example : ∃ e n, UIntText 17 e ∧ UIntText 3233 n ∧ exRsa.thumbInput = .ok (rfcRsa e n) := by
  obtain ⟨m, hm, hN⟩ := exRsa_holds
  exact C31_rsa exRsa m exNums hm hN rfl rfl

example : exRsa.thumbprint toyEnv "SHA-256" = exRsa'.thumbprint toyEnv "SHA-256" :=
  C31_independent toyEnv _ _ (.rsa rfl rfl rfl rfl rfl rfl) _

example : ∃ xs ys, UIntText P256.G.1.toNat xs ∧ UIntText P256.G.2.toNat ys ∧
    exEc.thumbInput = .ok (codeEc "P-256" xs ys) :=
  C31_ec exEc _ _ _ _ P256 _ _ rfl (.number (by decide)) (.number (by decide)) (by decide)

/-! ### C32: equality and hashing -/

/-- All public members of the class agree. -/
def SameMembers (a b : Key) : Prop := ∀ s ∈ publicMembers (classOf a), AttrEq a b s

theorem attrEq_some {a b : Key} {s : String} {v w : PyVal} (ha : attr a s = some v)
    (hb : attr b s = some w) : AttrEq a b s ↔ w.pyEq v = true := by
  unfold AttrEq
  rw [ha, hb]
  constructor
  · rintro ⟨_, _, h1, h2, h3⟩
    cases h1; cases h2; exact h3
  · intro h; exact ⟨_, _, rfl, rfl, h⟩

/-- For RSA, EC and symmetric keys `a == b` is `True` exactly when the classes are the same and all
public members agree, and `False` otherwise (with a key of any class on the other side). -/
theorem C32_eq (a b : Key) (ha : classOf a ≠ .plain) :
    (a.pyEq b = .ok true ↔ classOf a = classOf b ∧ SameMembers a b) ∧
    (a.pyEq b = .ok false ↔ ¬ (classOf a = classOf b ∧ SameMembers a b)) := by
  have main : ∃ r, a.pyEq b = .ok r ∧ (r = true ↔ classOf a = classOf b ∧ SameMembers a b) := by
    obtain ⟨kty, alg, use, kid, key, x5c, x5t, x5u, extra, hash, mat⟩ := a
    obtain ⟨kty', alg', use', kid', key', x5c', x5t', x5u', extra', hash', mat'⟩ := b
    unfold SameMembers
    cases mat with
    | plain => simp [classOf] at ha
    | rsa m =>
      cases mat' with
      | rsa m' =>
        refine ⟨_, rfl, ?_⟩
        simp only [classOf, publicMembers, List.forall_mem_cons, true_and, Bool.and_eq_true]
        rw [attrEq_some rfl rfl, attrEq_some rfl rfl, attrEq_some rfl rfl, attrEq_some rfl rfl,
          attrEq_some rfl rfl, attrEq_some rfl rfl, attrEq_some rfl rfl, attrEq_some rfl rfl,
          attrEq_some rfl rfl]
        simp [and_assoc]
      | _ => exact ⟨false, rfl, by simp [classOf]⟩
    | ec crv x y d c =>
      cases mat' with
      | ec crv' x' y' d' c' =>
        refine ⟨_, rfl, ?_⟩
        simp only [classOf, publicMembers, List.forall_mem_cons, true_and, Bool.and_eq_true]
        rw [attrEq_some rfl rfl, attrEq_some rfl rfl, attrEq_some rfl rfl, attrEq_some rfl rfl,
          attrEq_some rfl rfl, attrEq_some rfl rfl, attrEq_some rfl rfl]
        simp [and_assoc]
      | _ => exact ⟨false, rfl, by simp [classOf]⟩
    | sym kk =>
      cases mat' with
      | sym kk' =>
        refine ⟨_, rfl, ?_⟩
        simp only [classOf, publicMembers, List.forall_mem_cons, true_and, Bool.and_eq_true]
        rw [attrEq_some rfl rfl, attrEq_some rfl rfl, attrEq_some rfl rfl, attrEq_some rfl rfl,
          attrEq_some rfl rfl]
        simp [and_assoc]
      | _ => exact ⟨false, rfl, by simp [classOf]⟩
  obtain ⟨r, h1, h2⟩ := main
  rw [h1, ← h2]
  cases r <;> simp

/-- Comparing two plain keys that agree in their seven members raises `AttributeError`: the class
body of `RSAKey` added `n` and `e` to the list of members of `Key`. -/
theorem C32_plain (a b : Key) (ha : classOf a = .plain) (hb : classOf b = .plain)
    (h : ∀ s ∈ ["kty", "alg", "use", "kid", "x5c", "x5t", "x5u"], AttrEq a b s) :
    a.pyEq b = .error .attributeError := by
  obtain ⟨kty, alg, use, kid, key, x5c, x5t, x5u, extra, hash, mat⟩ := a
  obtain ⟨kty', alg', use', kid', key', x5c', x5t', x5u', extra', hash', mat'⟩ := b
  cases mat <;> simp [classOf] at ha
  cases mat' <;> simp [classOf] at hb
  simp only [List.forall_mem_cons] at h
  rw [attrEq_some rfl rfl, attrEq_some rfl rfl, attrEq_some rfl rfl, attrEq_some rfl rfl,
    attrEq_some rfl rfl, attrEq_some rfl rfl, attrEq_some rfl rfl] at h
  obtain ⟨h1, h2, h3, h4, h5, h6, h7, -⟩ := h
  simp [Key.pyEq, h1, h2, h3, h4, h5, h6, h7]

/-- A fresh key (never hashed) with an empty `kid`: hashing returns the number of the SHA-256
thumbprint and stores the base64url thumbprint as `kid`. -/
theorem C32_hash_sets_kid (E : Env) (k : Key) (hh : k.hash = none) (hkid : k.kid.truthy = false)
    (tp : Bytes) (ht : k.thumbprint E "SHA-256" = .ok tp) :
    ∃ k' s, k.pyHash E = .ok (bytesValue tp, k') ∧ k'.kid = .str s ∧ IsB64Url tp (utf8Encode s) ∧
      k'.mat = k.mat ∧ k'.key = k.key ∧ k'.kty = k.kty := by
  obtain ⟨t, ht1⟩ := asciiDecode_of_lt (b := b64e tp)
    (fun c hc => (urlAlphabet_lt c ((C02_rfc4648 tp).1 c hc)).1)
  have e1 := asciiEncode_utf8 (asciiEncode_decode ht1)
  have hu : asUnicode (b64e tp) = .str t := by rw [← e1.1, asUnicode_encode]
  refine ⟨{ k with hash := some (bytesToNat tp), kid := .str t }, t, ?_, rfl, ?_, rfl, rfl, rfl⟩
  · simp only [Key.pyHash, hh, ht, Bind.bind, Except.bind, hkid, Bool.false_eq_true, if_false, hu,
      bytesToNat_eq]
    rfl
  · rw [e1.1]; exact C02_rfc4648 tp

/-- … so a non-plain key with digest of the right size no longer equals what it equalled before, in
particular its own copy from before the hashing. -/
theorem C32_hash_changes_eq (E : Env) (hH : E.H.Lawful) (k k' b : Key) (h : Nat)
    (hc : classOf k ≠ .plain) (hh : k.hash = none) (hkid : k.kid = .str "")
    (hk : k.pyHash E = .ok (h, k')) (hb : k.pyEq b = .ok true) : k'.pyEq b = .ok false := by
  have htp : ∃ tp, k.thumbprint E "SHA-256" = .ok tp := by
    simp only [Key.pyHash, hh] at hk
    obtain ⟨tp, h1, -⟩ := bind_ok_iff.mp hk
    exact ⟨tp, h1⟩
  obtain ⟨tp, htp⟩ := htp
  have htl : tp.length = 32 := by
    unfold Key.thumbprint at htp
    obtain ⟨s, -, h1⟩ := bind_ok_iff.mp htp
    obtain ⟨a, h2, h3⟩ := bind_ok_iff.mp h1
    have : a = .sha256 := by simpa [digestHash] using h2.symm
    subst this
    simp only [Except.ok.injEq] at h3
    rw [← h3, hH.hash_length]
    rfl
  obtain ⟨k2, s, h1, h2, h3, h4, -, h6⟩ := C32_hash_sets_kid E k hh (by rw [hkid]; rfl) tp htp
  rw [h1] at hk
  simp only [Except.ok.injEq, Prod.mk.injEq] at hk
  obtain ⟨-, rfl⟩ := hk
  have hcl : classOf k2 = classOf k := by unfold classOf; rw [h4]
  rw [(C32_eq k2 b (by rw [hcl]; exact hc)).2]
  rintro ⟨-, hm⟩
  obtain ⟨-, hm0⟩ := (C32_eq k b hc).1.mp hb
  have hkidm : "kid" ∈ publicMembers (classOf k) := by cases classOf k <;> decide
  have m1 := hm "kid" (by rw [hcl]; exact hkidm)
  have m0 := hm0 "kid" hkidm
  obtain ⟨v, w, hv, hw, hvw⟩ := m1
  obtain ⟨v0, w0, hv0, hw0, hvw0⟩ := m0
  simp only [attr, Option.some.injEq] at hv hw hv0 hw0
  subst hv hw hv0 hw0
  rw [h2] at hvw
  rw [hkid] at hvw0
  cases hbk : b.kid with
  | str t =>
    rw [hbk] at hvw hvw0
    simp only [PyVal.pyEq, beq_iff_eq] at hvw hvw0
    subst hvw hvw0
    have := isB64Url_length h3
    rw [htl] at this
    exact absurd this (by decide +kernel)
  | _ => rw [hbk] at hvw; simp [PyVal.pyEq] at hvw

/-- Hashing again gives the same number and changes nothing. -/
theorem C32_hash_idempotent (E : Env) (k k' : Key) (h : Nat) (hk : k.pyHash E = .ok (h, k')) :
    k'.pyHash E = .ok (h, k') := by
  have indep : ∀ (kid : PyVal) (hash : Option Nat),
      Key.thumbprint E { k with kid := kid, hash := hash } "SHA-256" = k.thumbprint E "SHA-256" := by
    intro kid hash
    apply C31_independent
    cases hm : k.mat with
    | plain => exact .plain rfl hm
    | rsa m => exact .rsa (m := m) (m' := m) rfl hm rfl rfl rfl rfl
    | ec crv x y d c => exact .ec rfl hm
    | sym kk => exact .sym rfl hm rfl rfl
  unfold Key.pyHash at hk
  split at hk
  · rename_i n hn
    simp only [Except.ok.injEq, Prod.mk.injEq] at hk
    obtain ⟨rfl, rfl⟩ := hk
    simp [Key.pyHash, hn]
  · rename_i hn
    obtain ⟨tp, h1, h2⟩ := bind_ok_iff.mp hk
    simp only at h2
    split at h2
    · rename_i hkid
      simp only [Except.ok.injEq, Prod.mk.injEq] at h2
      obtain ⟨rfl, rfl⟩ := h2
      cases hb : bytesToNat tp with
      | succ n => simp [Key.pyHash]
      | zero =>
        have := indep k.kid (some 0)
        simp only [Key.pyHash]
        rw [this, h1]
        simp [Bind.bind, Except.bind, hkid, hb]
    · rename_i hkid
      simp only [Except.ok.injEq, Prod.mk.injEq] at h2
      obtain ⟨rfl, rfl⟩ := h2
      cases hb : bytesToNat tp with
      | succ n => simp [Key.pyHash]
      | zero =>
        have := indep (asUnicode (b64e tp)) (some 0)
        simp only [Key.pyHash]
        rw [this, h1]
        simp [Bind.bind, Except.bind, hb]

/-- A program that hashes keys of a store, in any order and any number of times; the i-th step hashes
key number `ops[i]`.  The result is the store and the numbers returned. -/
def hashRun (E : Env) : (Nat → Key) → List Nat → PyM ((Nat → Key) × List Nat)
  | st, [] => .ok (st, [])
  | st, i :: ops => do
    let (h, k) ← (st i).pyHash E
    let (st', hs) ← hashRun E (fun j => if j = i then k else st j) ops
    .ok (st', h :: hs)

/-- After any such program every key is as after hashing it at most once, and every returned number is
the one its first hashing returned: hashes are stable once taken. -/
theorem C32_history (E : Env) (st st' : Nat → Key) (ops : List Nat) (hs : List Nat)
    (h : hashRun E st ops = .ok (st', hs)) :
    (∀ i ∈ ops, ∃ n, (st i).pyHash E = .ok (n, st' i)) ∧ (∀ i, i ∉ ops → st' i = st i) ∧
    List.Forall₂ (fun i n => (st i).pyHash E = .ok (n, st' i)) ops hs := by
  induction ops generalizing st hs with
  | nil =>
    simp only [hashRun, Except.ok.injEq, Prod.mk.injEq] at h
    obtain ⟨rfl, rfl⟩ := h
    exact ⟨by simp, by simp, .nil⟩
  | cons i ops ih =>
    unfold hashRun at h
    obtain ⟨⟨n, k⟩, h1, h2⟩ := bind_ok_iff.mp h
    obtain ⟨⟨st2, hs2⟩, h3, h4⟩ := bind_ok_iff.mp h2
    simp only [Except.ok.injEq, Prod.mk.injEq] at h4
    obtain ⟨rfl, rfl⟩ := h4
    obtain ⟨a1, a2, a3⟩ := ih _ _ h3
    have hidem := C32_hash_idempotent E _ _ _ h1
    have hi : st2 i = k := by
      by_cases hm : i ∈ ops
      · obtain ⟨n', hn'⟩ := a1 i hm
        rw [if_pos rfl, hidem] at hn'
        simp only [Except.ok.injEq, Prod.mk.injEq] at hn'
        exact hn'.2.symm
      · rw [a2 i hm, if_pos rfl]
    have lift : ∀ j n', Key.pyHash E (if j = i then k else st j) = .ok (n', st2 j) →
        (st j).pyHash E = .ok (n', st2 j) := by
      intro j n' hj
      by_cases hji : j = i
      · subst hji
        rw [if_pos rfl, hidem] at hj
        rw [h1]
        exact hj
      · rw [if_neg hji] at hj; exact hj
    refine ⟨?_, ?_, ?_⟩
    · intro j hj
      rcases List.mem_cons.mp hj with rfl | hj
      · exact ⟨n, by rw [hi]; exact h1⟩
      · obtain ⟨n', hn'⟩ := a1 j hj
        exact ⟨n', lift j n' hn'⟩
    · intro j hj
      simp only [List.mem_cons, not_or] at hj
      rw [a2 j hj.2, if_neg hj.1]
    · refine .cons (by rw [hi]; exact h1) (a3.imp ?_)
      intro j n' hj
      exact lift j n' hj

/-- Python's contract "equal keys have equal hashes" holds for RSA keys with text labels … -/
theorem C32_contract_rsa (E : Env) (a b a' b' : Key) (m m' : RsaMat) (ha : a.mat = .rsa m)
    (hb : b.mat = .rsa m') (hm : (∃ n : Nat, m.n = .int n) ∧ ∃ e : Nat, m.e = .int e)
    (hm' : (∃ n : Nat, m'.n = .int n) ∧ ∃ e : Nat, m'.e = .int e)
    (hka : a.key.truthy = true) (hkb : b.key.truthy = true)
    (hta : a.kty = .str "RSA") (hh : a.hash = none) (hh' : b.hash = none)
    (heq : a.pyEq b = .ok true) (x y : Nat) (hx : a.pyHash E = .ok (x, a'))
    (hy : b.pyHash E = .ok (y, b')) : x = y := by
  obtain ⟨-, hs⟩ := (C32_eq a b (by simp [classOf, ha])).1.mp heq
  have hcl : classOf a = .rsa := by simp [classOf, ha]
  have q : ∀ s ∈ publicMembers .rsa, AttrEq a b s := by rw [← hcl]; exact hs
  have hkty : a.kty = b.kty := by
    have := (attrEq_some (s := "kty") rfl rfl).mp (q "kty" (by decide))
    rw [hta] at this ⊢
    cases hbt : b.kty with
    | str t => rw [hbt] at this; simp only [PyVal.pyEq, beq_iff_eq] at this; rw [this]
    | _ => rw [hbt] at this; simp [PyVal.pyEq] at this
  obtain ⟨⟨n, hn⟩, e, he⟩ := hm
  obtain ⟨⟨n', hn'⟩, e', he'⟩ := hm'
  have h1 := (attrEq_some (a := a) (b := b) (s := "n") (v := m.n) (w := m'.n) (by simp [attr, ha])
    (by simp [attr, hb])).mp (q "n" (by decide))
  have h2 := (attrEq_some (a := a) (b := b) (s := "e") (v := m.e) (w := m'.e) (by simp [attr, ha])
    (by simp [attr, hb])).mp (q "e" (by decide))
  rw [hn, hn'] at h1
  rw [he, he'] at h2
  simp only [PyVal.pyEq, beq_iff_eq] at h1 h2
  have hT := C31_independent E a b (.rsa ha hb (by rw [hn, hn', h1]) (by rw [he, he', h2])
    (by rw [hka, hkb]) hkty) "SHA-256"
  simp only [Key.pyHash, hh] at hx
  simp only [Key.pyHash, hh'] at hy
  obtain ⟨tp, t1, t2⟩ := bind_ok_iff.mp hx
  obtain ⟨tp', t1', t2'⟩ := bind_ok_iff.mp hy
  rw [hT, t1'] at t1
  simp only [Except.ok.injEq] at t1
  subst t1
  have ex : x = bytesToNat tp' := by split at t2 <;> simp_all
  have ey : y = bytesToNat tp' := by split at t2' <;> simp_all
  rw [ex, ey]

/-- … and fails for symmetric keys: any two keys made from raw secrets with the same labels compare
equal, while keys with different secrets have different thumbprint inputs. -/
theorem C32_sym_secrets (s s' : Bytes) (alg use kid : String) (k k' : Key)
    (h : symKeyNew [("alg", .str alg), ("use", .str use), ("kid", .str kid)] (.bytes s) = .ok k)
    (h' : symKeyNew [("alg", .str alg), ("use", .str use), ("kid", .str kid)] (.bytes s') = .ok k') :
    k.pyEq k' = .ok true ∧ (k.thumbInput = k'.thumbInput ↔ s = s') := by
  have e : ∀ s k, symKeyNew [("alg", .str alg), ("use", .str use), ("kid", .str kid)] (.bytes s) = .ok k →
      k = keyCommon "oct" symArgs [("alg", .str alg), ("use", .str use), ("kid", .str kid)]
        (.val (.bytes s)) (.sym (.str "")) := by
    intro s k h
    unfold symKeyNew at h
    rw [if_neg (by simp [PyDict.has, PyDict.get?, List.lookup])] at h
    have hk : kwGet [("alg", .str alg), ("use", .str use), ("kid", .str kid)] "k" (.str "") =
        .str "" := rfl
    simp only [hk, asBytes, empty_truthy, Bool.false_eq_true, and_false, if_false,
      Except.ok.injEq] at h
    exact h.symm
  have e1 := e s k h
  have e2 := e s' k' h'
  constructor
  · rw [e1, e2]
    have h1 : strAttr (kwGet [("alg", .str alg), ("use", .str use), ("kid", .str kid)] "kty"
      (.str "oct")) = .str "oct" := rfl
    have h2 : strAttr (kwGet [("alg", .str alg), ("use", .str use), ("kid", .str kid)] "alg"
      (.str "")) = .str alg := rfl
    have h3 : strAttr (kwGet [("alg", .str alg), ("use", .str use), ("kid", .str kid)] "use"
      (.str "")) = .str use := rfl
    have h4 : strAttr (kwGet [("alg", .str alg), ("use", .str use), ("kid", .str kid)] "kid"
      (.str "")) = .str kid := rfl
    simp [Key.pyEq, keyCommon, PyVal.pyEq, h1, h2, h3, h4]
  · refine C31_sym_injective k k' (.str "") (.str "") s s' (by rw [e1]; rfl) (by rw [e2]; rfl)
      (by rw [e1]; rfl) (by rw [e2]; rfl) ?_ ?_
    · rw [e1]; rfl
    · rw [e2]; rfl

/-- The fresh key of the example below. -/
def exNoKid : Key := { exRsa with kid := .str "" }

example : ∃ h k', exNoKid.pyHash toyEnv = .ok (h, k') ∧ exNoKid.pyEq exNoKid = .ok true ∧
    k'.pyEq exNoKid = .ok false := by
  have hk : ∃ h k', exNoKid.pyHash toyEnv = .ok (h, k') := by
    obtain ⟨m, hm, hN⟩ := exRsa_holds
    obtain ⟨e, n, -, -, ht⟩ := C31_rsa exNoKid m exNums hm hN rfl rfl
    obtain ⟨k', s, h1, -⟩ := C32_hash_sets_kid toyEnv exNoKid rfl rfl _ (by
      unfold Key.thumbprint; rw [ht]; rfl)
    exact ⟨_, k', h1⟩
  obtain ⟨h, k', hk⟩ := hk
  exact ⟨h, k', hk, by decide +kernel,
    C32_hash_changes_eq toyEnv toyHashes_lawful _ _ _ _ (by decide) rfl rfl hk (by decide +kernel)⟩

end Verif
