import Verif.Props.JweRaises
import Verif.Props.Cert
import Verif.Spec.LoadExc
/-
C130: which exceptions reading a JWK or a JWK set raises, and what a failed `load_jwks` leaves.
-/

namespace Verif
open Spec

/-! ### Certificates -/

theorem raises_derRead (n : Nat) (s : Bytes) : Raises [.valueError] (derRead n s) :=
  raises_ite (fun _ => raises_err (by decide)) fun _ => raises_ok _

theorem raises_derLen (s : Bytes) : Raises [.valueError, .indexError] (derLen s) := by
  cases s with
  | nil => exact raises_err (by decide)
  | cons c s =>
    unfold derLen
    refine raises_ite (fun _ => raises_ok _) fun _ => raises_bind (raises_mono (raises_derRead _ _) (by decide)) fun r _ => ?_
    obtain ⟨e, s'⟩ := r
    dsimp only
    split
    · exact raises_err (by decide)
    · exact raises_err (by decide)
    · exact raises_ite (fun _ => raises_err (by decide)) fun _ => raises_ok _

theorem raises_derObject (s : Bytes) : Raises [.valueError, .indexError] (derObject s) := by
  cases s with
  | nil => exact raises_err (by decide)
  | cons t s =>
    unfold derObject
    exact raises_bind (raises_derLen _) fun _ _ => raises_bind (raises_mono (raises_derRead _ _) (by decide)) fun _ _ => raises_ok _

/-- As many rounds as bytes are enough. -/
theorem raises_derElems : ∀ (fuel : Nat) (s : Bytes), s.length ≤ fuel → Raises [.valueError, .indexError] (derElems fuel s)
  | _, [], _ => by unfold derElems; exact raises_ok _
  | 0, _ :: _, h => by simp at h
  | fuel + 1, c :: s, h => by
    unfold derElems
    refine raises_bind (raises_derObject _) fun r hr => ?_
    obtain ⟨t, p, r'⟩ := r
    obtain ⟨e, he, hs⟩ := derObject_ok.mp hr
    have h2 := tlv_long he
    have hl : (c :: s).length = e.length + r'.length := by rw [hs, List.length_append]
    exact raises_bind (raises_derElems fuel r' (by omega)) fun _ _ => raises_ok _

theorem raises_derSequence (b : Bytes) : Raises [.valueError, .indexError] (derSequence b) := by
  unfold derSequence
  exact raises_bind (raises_derObject _) fun _ _ => raises_ite (fun _ => raises_err (by decide)) fun _ =>
    raises_bind (raises_derElems _ _ le_rfl) fun _ _ => raises_ite (fun _ => raises_err (by decide)) fun _ => raises_ok _

theorem raises_derAt (l : List DerElem) (i : Nat) : Raises [.indexError] (derAt l i) := by
  unfold derAt
  split
  · exact raises_ok _
  · exact raises_err (by decide)

theorem raises_der2rsa {imp : Bytes → PyM RsaKey} (hi : ∀ b, Raises [.valueError, .indexError, .typeError] (imp b)) (der : Bytes) :
    Raises [.valueError, .indexError, .typeError] (der2rsa imp der) := by
  unfold der2rsa
  refine raises_bind (raises_mono (raises_derSequence _) (by decide)) fun _ _ => raises_bind
    (raises_bind (raises_mono (raises_derAt _ _) (by decide)) fun x _ => ?_) fun _ _ =>
    raises_bind (raises_mono (raises_derAt _ _) (by decide)) fun x _ => ?_
  · cases x with
    | raw b => exact raises_mono (raises_derSequence _) (by decide)
    | int i => exact raises_err (by decide)
  · cases x with
    | raw b => exact hi _
    | int i => exact raises_err (by decide)

/-! ### One key -/

/-- The library as documented: the standard algorithms; certificates are read with `der2rsa`, and `RSA.importKey`
raises nothing but `ValueError`, `IndexError` and `TypeError`. -/
def Spec.Documented (E : Env) : Prop :=
  Standard E ∧ ∃ imp, ReadsCerts E imp ∧ ∀ b, Raises [.valueError, .indexError, .typeError] (imp b)

theorem raises_construct {E : Env} (hE : Standard E) (l : List Int) : Raises [.valueError] (E.R.construct l) := by
  obtain ⟨f, hf⟩ := hE.rsa
  rw [hf]
  change Raises _ (Real.construct l)
  unfold Real.construct
  split
  all_goals first
    | exact raises_err (by decide)
    | exact raises_ite (fun _ => raises_ok _) fun _ => raises_err (by decide)

theorem raises_valueErrorTo {α : Type} {S : List Exc} {e' : Exc} {x : PyM α} (he : e' ∈ S)
    (h : ∀ e, x = .error e → e.isValueError = true ∨ e ∈ S) : Raises S (valueErrorTo e' x) := by
  cases x with
  | ok a => exact raises_ok _
  | error e =>
    unfold valueErrorTo
    refine raises_ite (fun _ => raises_err he) fun hn => raises_err ?_
    exact (h e rfl).resolve_left hn

theorem rsaLong_raises (v : PyVal) : ∀ e, rsaLong v = .error e → e = .typeError ∨ e.isValueError = true := by
  intro e h
  unfold rsaLong at h
  split at h
  · cases h
  · rename_i hc
    simp only [Bool.or_eq_true, decide_eq_true_eq, not_or, Bool.not_eq_true] at hc
    cases hd : deser v with
    | ok n => rw [hd] at h; cases h
    | error e' => rw [hd] at h; cases h; exact raises_deser v hc.2 _ hd

theorem raises_asciiEncode (s : String) : Raises [.unicodeEncodeError] (asciiEncode s) := by
  unfold asciiEncode
  repeat' split
  all_goals first | exact raises_ok _ | exact raises_err (by decide)

theorem raises_pyLen (v : PyVal) : Raises [.typeError] (pyLen v) := by
  unfold pyLen
  split
  all_goals first | exact raises_ok _ | exact raises_err (by decide)

theorem raises_asInts : ∀ l : List PyVal, Raises [.typeError] (asInts l)
  | [] => raises_ok _
  | v :: l => by
    unfold asInts
    split
    · exact raises_map (raises_asInts l)
    · exact raises_err (by decide)

/-- What `keyrep` makes of a JSON value. -/
theorem kwGet_json {d : PyDict} (h : ∀ p ∈ d, NoBytes p.2) (k : String) {v : PyVal}
    (hv : kwGet (d.map fun kv => (kv.1, asBytes kv.2)) k (.str "") = v) :
    v = .str "" ∨ (∃ s, v = .bytes (utf8Encode s)) ∨ (∀ s, v ≠ .str s) ∧ ∀ b, v ≠ .bytes b := by
  rw [kwGet_map] at hv
  cases hg : PyDict.get? d k with
  | none => rw [hg] at hv; exact .inl hv.symm
  | some w =>
    rw [hg] at hv
    simp only [Option.map_some, Option.getD_some] at hv
    subst hv
    have := h _ (get?_mem hg)
    cases this with
    | str s => exact .inr (.inl ⟨s, rfl⟩)
    | _ => exact .inr (.inr ⟨(fun _ h => by cases h), (fun _ h => by cases h)⟩)

theorem verifyLongs_json : ∀ l : List PyVal, (∀ v ∈ l, ∀ b, v = .bytes b → ∃ s, b = utf8Encode s) →
    ∃ r : List PyVal × Bool, verifyLongs l = .ok r ∧ r.1.length = l.length
  | [], _ => ⟨_, rfl, rfl⟩
  | v :: l, h => by
    obtain ⟨r, hr, hl⟩ := verifyLongs_json l fun w hw => h w (by simp [hw])
    unfold verifyLongs
    split
    · exact ⟨_, by rw [hr]; rfl, by simpa using hl⟩
    · split
      · rename_i b _
        obtain ⟨s, rfl⟩ := h (.bytes b) (by simp) _ rfl
        rw [utf8Decode_encode]
        exact ⟨_, rfl, rfl⟩
      · exact ⟨_, rfl, rfl⟩

theorem raises_ec {kw : PyDict} (key curve : PyVal)
    (h : ∀ k b, kwGet kw k (.str "") = .bytes b → ∃ s, b = utf8Encode s) (rnd : Nat) :
    Raises EcJwkExc (ecKeyNew kw (.val key) (.val curve) rnd) := by
  unfold ecKeyNew
  refine raises_ite (fun _ => raises_err (by decide)) fun _ => ?_
  dsimp only
  refine raises_ite (fun _ => ?_) fun _ => raises_ite (fun _ => raises_ite (fun _ => ?_) fun _ => raises_ok _) fun _ => raises_ok _
  · obtain ⟨⟨vs, ok⟩, hv, hl⟩ := verifyLongs_json [kwGet kw "x" (.str ""), kwGet kw "y" (.str ""), kwGet kw "d" (.str "")]
      (by simp only [List.mem_cons, List.not_mem_nil, or_false]; rintro v (rfl | rfl | rfl) b hb <;> exact h _ b hb)
    rw [hv]
    have hend : ∀ k : Key, Raises EcJwkExc
        (match vs with
          | [x, y, d'] => ecDeserialize k (kwGet kw "crv" (.str "")) x y d'
          | _ => .error .assertionError) := by
      intro k
      match vs, hl with
      | [x, y, d'], _ =>
        dsimp only
        unfold ecDeserialize
        refine raises_bind (raises_mono (raises_coord _) (by decide)) fun _ _ => raises_bind (raises_mono (raises_coord _) (by decide)) fun _ _ =>
          raises_bind (raises_mono (raises_curve_val _) (by decide)) fun _ _ => raises_bind (raises_ite (fun _ => ?_) fun _ => raises_ok _) fun _ _ => raises_ok _
        exact raises_mono (raises_ecD _) (by decide)
    refine raises_bind (raises_ok _) fun r hr => ?_
    cases hr
    dsimp only
    cases ok with
    | false => exact hend _
    | true =>
      refine raises_bind (x := verifyKid _) ?_ fun _ _ => hend _
      unfold verifyKid
      refine raises_ite (fun _ => ?_) fun _ => raises_ok _
      split
      · exact raises_ok _
      · exact raises_err (by decide)
  · exact raises_err (by decide)

theorem raises_pyBytes (v : PyVal) : Raises [.typeError, .valueError, .overflowError] (pyBytes v) := by
  have hl : ∀ l : List PyVal, Raises [.typeError, .valueError, .overflowError] (listBytes l) := by
    intro l
    induction l with
    | nil => exact raises_ok _
    | cons v l ih =>
      rw [listBytes]
      split
      · exact raises_ite (fun _ => raises_map ih) fun _ => raises_err (by decide)
      · exact raises_err (by decide)
  unfold pyBytes
  split
  all_goals first
    | exact raises_ok _
    | exact raises_err (by decide)
    | exact hl _
    | exact raises_ite (fun _ => raises_err (by decide)) fun _ => raises_ite (fun _ => raises_ok _) fun _ => raises_err (by decide)

theorem raises_oct (kw : PyDict) (key : PyVal) : Raises OctJwkExc (symKeyNew kw key) := by
  unfold symKeyNew
  refine raises_ite (fun _ => raises_err (by decide)) fun _ => ?_
  dsimp only
  refine raises_ite (fun _ => ?_) fun _ => raises_ok _
  exact raises_bind (raises_mono (raises_pyBytes _) (by decide)) fun _ _ => raises_bind (raises_mono (raises_b64d _) (by decide)) fun _ _ => raises_ok _

theorem raises_x5c {v : PyVal} (hs : ∀ s, v ≠ .str s) (ht : v.truthy = true) :
    Raises [.unicodeEncodeError, .attributeError, .keyError, .typeError] (x5cFirst v) := by
  unfold x5cFirst
  split
  · exact raises_mono (raises_asciiEncode _) (by decide)
  · exact raises_err (by decide)
  · exact absurd rfl (hs _)
  · exact raises_err (by decide)
  · exact raises_err (by decide)
  · cases ht
  · cases ht
  · exact raises_err (by decide)

theorem raises_split {k : Key} {m : RsaMat} (h : k.key.truthy = true) : Raises [.attributeError] (rsaSplit k m) := by
  unfold rsaSplit
  split
  · exact raises_ok _
  · rw [h]; exact raises_err (by decide)

theorem raises_rsaDeser {E : Env} (hE : Documented E) (k : Key) (m : RsaMat) (hx : ∀ s, k.x5c ≠ .str s) (ht : ∀ s, k.x5t = .str s → s = "") :
    Raises RsaJwkExc (rsaDeserialize E k m) := by
  obtain ⟨hS, imp, hc, hi⟩ := hE
  unfold rsaDeserialize
  refine raises_ite (fun _ => ?_) fun _ => raises_ite (fun hxt => ?_) fun _ => raises_err (by decide)
  · refine raises_valueErrorTo (by decide) ?_
    have bindR : ∀ {α β : Type} {x : PyM α} {f : α → PyM β}, (∀ e, x = .error e → e.isValueError = true ∨ e ∈ RsaJwkExc) →
        (∀ a, ∀ e, f a = .error e → e.isValueError = true ∨ e ∈ RsaJwkExc) → ∀ e, (x >>= f) = .error e → e.isValueError = true ∨ e ∈ RsaJwkExc := by
      intro α β x f h1 h2 e h
      cases x with
      | ok a => exact h2 a e h
      | error e' => cases h; exact h1 _ rfl
    have long : ∀ v e, rsaLong v = .error e → e.isValueError = true ∨ e ∈ RsaJwkExc := by
      intro v e h
      rcases rsaLong_raises v e h with rfl | h
      · exact .inr (by decide)
      · exact .inl h
    refine bindR (long _) fun _ => bindR (long _) fun _ => bindR (long _) fun _ => bindR (long _) fun _ => bindR (long _) fun _ =>
      bindR (long _) fun _ => bindR (long _) fun _ => bindR (long _) fun _ => bindR (long _) fun _ => bindR ?_ fun _ => bindR ?_ fun _ => ?_
    · exact fun e h => .inr (raises_mono (raises_asInts _) (T := RsaJwkExc) (by decide) e h)
    · exact fun e h => .inr (raises_mono (raises_construct hS _) (T := RsaJwkExc) (by decide) e h)
    · intro e h; cases h
  · refine raises_bind (raises_mono (raises_x5c hx hxt) (by decide)) fun t _ =>
      raises_bind (x := a2bBase64 t) (raises_mono (a2b_raises _ _ _ _) (by decide)) fun der _ => ?_
    have rest : Raises RsaJwkExc (do let key ← E.R.fromCert der; rsaSplit { k with key := .rsa key } m) :=
      raises_bind (by rw [hc]; exact raises_mono (raises_der2rsa hi _) (by decide)) fun _ _ => raises_mono (raises_split rfl) (by decide)
    refine raises_ite (fun h5 => ?_) fun _ => rest
    cases hx5 : k.x5t with
    | str s =>
      rw [ht s hx5] at hx5
      rw [hx5] at h5
      cases h5
    | _ => exact raises_err (by decide)

theorem raises_rsa {E : Env} (hE : Documented E) {d : PyDict} (h : ∀ p ∈ d, NoBytes p.2) (key : PyVal) :
    Raises RsaJwkExc (rsaKeyNew E (d.map fun kv => (kv.1, asBytes kv.2)) (.val key)) := by
  unfold rsaKeyNew
  refine raises_ite (fun _ => raises_err (by decide)) fun _ => ?_
  dsimp only
  refine raises_bind (raises_mono (raises_pyLen _) (by decide)) fun _ _ => raises_bind (raises_ite (fun _ =>
    raises_map (raises_mono (raises_pyLen _) (by decide))) fun _ => raises_ok _) fun _ _ => raises_bind (raises_mono (raises_pyLen _) (by decide)) fun _ _ =>
    raises_ite (fun _ => ?_) fun _ => raises_ite (fun h => raises_mono (raises_split h.1) (by decide)) fun _ => raises_ok _
  refine raises_rsaDeser hE _ _ ?_ ?_
  · intro s hs
    simp only [keyCommon] at hs
    split at hs
    · rename_i ht
      rw [kwGet_map] at hs ht
      cases hg : PyDict.get? d "x5c" with
      | none => rw [hg] at ht; cases ht
      | some w =>
        rw [hg] at hs
        cases w <;> cases hs
    · cases hs
  · intro s hs
    rcases kwGet_json h "x5t" hs with h | ⟨t, h⟩ | ⟨h, -⟩
    · cases h; rfl
    · cases h
    · exact absurd rfl (h s)

/-- **C130.** The exceptions of `keyrep` on the members of a JSON object, by key type. -/
theorem C130_family {E : Env} (hE : Documented E) {d : PyDict} (h : ∀ p ∈ d, NoBytes p.2) {e : Exc} (he : keyrep E d = .error e) :
    (PyDict.get? d "kty" = none ∧ e = .keyError) ∨ (PyDict.get? d "kty" = some (.str "RSA") ∧ e ∈ RsaJwkExc) ∨
    (PyDict.get? d "kty" = some (.str "oct") ∧ e ∈ OctJwkExc) ∨ (PyDict.get? d "kty" = some (.str "EC") ∧ e ∈ EcJwkExc) ∨
    e = .typeError ∧ PyDict.has d "self" = true := by
  have eqStr : ∀ {v : PyVal} {s : String}, v.pyEq (.str s) = true → v = .str s := by
    intro v s h
    cases v <;> simp [PyVal.pyEq] at h
    rw [h]
  unfold keyrep at he
  dsimp only at he
  cases hk : PyDict.get? d "kty" with
  | none => rw [hk] at he; cases he; exact .inl ⟨rfl, rfl⟩
  | some kty =>
    rw [hk] at he
    dsimp only at he
    split at he
    · rename_i h1
      exact .inr (.inl ⟨by rw [eqStr h1], raises_rsa hE h _ _ he⟩)
    · split at he
      · rename_i h1
        exact .inr (.inr (.inl ⟨by rw [eqStr h1], raises_oct _ _ _ he⟩))
      · split at he
        · rename_i h1
          refine .inr (.inr (.inr (.inl ⟨by rw [eqStr h1], raises_ec _ _ (fun k b hb => ?_) _ _ he⟩)))
          rcases kwGet_json h k hb with h | ⟨t, h⟩ | ⟨-, h⟩
          · cases h
          · cases h; exact ⟨t, rfl⟩
          · exact absurd rfl (h b)
        · unfold plainKeyNew at he
          split at he
          · rename_i hs
            cases he
            refine .inr (.inr (.inr (.inr ⟨rfl, ?_⟩)))
            unfold PyDict.has at hs ⊢
            rw [get?_map] at hs
            cases hg : PyDict.get? d "self" with
            | none => rw [hg] at hs; cases hs
            | some v => rfl
          · cases he

/-! ### Key sets -/

theorem raises_go {E : Env} (hE : Documented E) : ∀ (l : List PyVal) (ks : Keys), (∀ v ∈ l, NoBytes v) →
    Raises SetExc (Keys.loadDict.go E ks l).1
  | [], _, _ => raises_ok _
  | v :: l, ks, h => by
    cases v with
    | dict d =>
      rw [Keys.loadDict.go]
      cases hk : keyrep E d with
      | ok k => exact raises_go hE l _ fun w hw => h w (by simp [hw])
      | error e =>
        refine raises_err ?_
        have hd : ∀ p ∈ d, NoBytes p.2 := by
          have := h (.dict d) (by simp)
          cases this with
          | dict _ h => exact h
        have sub : (∀ x ∈ RsaJwkExc, x ∈ SetExc) ∧ (∀ x ∈ OctJwkExc, x ∈ SetExc) ∧ ∀ x ∈ EcJwkExc, x ∈ SetExc := by decide
        rcases C130_family hE hd hk with ⟨-, rfl⟩ | ⟨-, h⟩ | ⟨-, h⟩ | ⟨-, h⟩ | ⟨rfl, -⟩
        · decide
        · exact sub.1 _ h
        · exact sub.2.1 _ h
        · exact sub.2.2 _ h
        · decide
    | _ => exact raises_err (by decide)

theorem raises_load {E : Env} (hE : Documented E) (ks : Keys) (text : String) : Raises SetExc (ks.loadJwks E text).1 := by
  unfold Keys.loadJwks
  cases hj : jsonLoads text with
  | error e => exact raises_mono (raises_json _) (by decide) e hj |> raises_err
  | ok v =>
    dsimp only
    unfold Keys.loadDict
    have hv := jsonLoads_noBytes hj
    cases hv with
    | dict d hd =>
      cases hg : PyVal.getItem (.dict d) "keys" with
      | error e => exact raises_err (raises_mono raises_item (T := SetExc) (by decide) e hg)
      | ok w =>
        have hw : NoBytes w := by
          unfold PyVal.getItem at hg
          dsimp only at hg
          cases hq : PyDict.get? d "keys" with
          | none => rw [hq] at hg; cases hg
          | some x => rw [hq] at hg; cases hg; exact hd _ (get?_mem hq)
        cases hw with
        | list l hl => exact raises_go hE l ks hl
        | dict m hm => dsimp only; split; exacts [raises_ok _, raises_err (by decide)]
        | str t => dsimp only; split; exacts [raises_ok _, raises_err (by decide)]
        | _ => exact raises_err (by decide)
    | _ => exact raises_err (by decide)

/-- A text for each of the exceptions. -/
def exSetText : Exc → String
  | .jsonDecodeError => "{"
  | .typeError => "[]"
  | .attributeError => "{\"keys\":[1]}"
  | .keyError => "{}"
  | .valueError => "{\"keys\":[{\"kty\":\"oct\",\"k\":-1}]}"
  | .indexError => "{\"keys\":[{\"kty\":\"RSA\",\"x5c\":[\"MIA=\"]}]}"
  | .overflowError => "{\"keys\":[{\"kty\":\"oct\",\"k\":9223372036854775808}]}"
  | .unicodeEncodeError => "{\"keys\":[{\"kty\":\"RSA\",\"x5c\":[\"é\"]}]}"
  | .binasciiError => "{\"keys\":[{\"kty\":\"oct\",\"k\":\"A\\n\"}]}"
  | .badSyntax => "{\"keys\":[{\"kty\":\"oct\",\"k\":\"+\"}]}"
  | .headerError => "{\"keys\":[{\"kty\":\"EC\",\"crv\":\"P-256\",\"x\":1,\"y\":1,\"kid\":1}]}"
  | .deSerializationNotPossible => "{\"keys\":[{\"kty\":\"EC\",\"crv\":\"P-256\"}]}"
  | _ => "{\"keys\":[{\"kty\":\"EC\",\"crv\":\"P-224\",\"x\":1,\"y\":1}]}"

/-- What the text says. -/
def exSetVal : Exc → PyVal
  | .typeError => .list []
  | .attributeError => .dict [("keys", .list [.int 1])]
  | .keyError => .dict []
  | .valueError => .dict [("keys", .list [.dict [("kty", .str "oct"), ("k", .int (-1))]])]
  | .indexError => .dict [("keys", .list [.dict [("kty", .str "RSA"), ("x5c", .list [.str "MIA="])]])]
  | .overflowError => .dict [("keys", .list [.dict [("kty", .str "oct"), ("k", .int 9223372036854775808)]])]
  | .unicodeEncodeError => .dict [("keys", .list [.dict [("kty", .str "RSA"), ("x5c", .list [.str "é"])]])]
  | .binasciiError => .dict [("keys", .list [.dict [("kty", .str "oct"), ("k", .str "A\n")]])]
  | .badSyntax => .dict [("keys", .list [.dict [("kty", .str "oct"), ("k", .str "+")]])]
  | .headerError => .dict [("keys", .list [.dict [("kty", .str "EC"), ("crv", .str "P-256"), ("x", .int 1), ("y", .int 1), ("kid", .int 1)]])]
  | .deSerializationNotPossible => .dict [("keys", .list [.dict [("kty", .str "EC"), ("crv", .str "P-256")]])]
  | _ => .dict [("keys", .list [.dict [("kty", .str "EC"), ("crv", .str "P-224"), ("x", .int 1), ("y", .int 1)]])]

theorem exSet_reads : ∀ e ∈ SetExc, e ≠ .jsonDecodeError → jsonLoads (exSetText e) = .ok (exSetVal e) := by decide +kernel
theorem exSet_broken : jsonLoads (exSetText .jsonDecodeError) = .error .jsonDecodeError := by decide +kernel

/-- Key specifications that fail whatever the library does. -/
theorem exSet_fails (E : Env) (ks : Keys) : ∀ e ∈ SetExc, e ≠ .jsonDecodeError → e ≠ .indexError →
    (ks.loadDict E (exSetVal e)).1 = .error e := by
  simp only [SetExc, List.mem_cons, List.not_mem_nil, or_false]
  rintro e (rfl | rfl | rfl | rfl | rfl | rfl | rfl | rfl | rfl | rfl | rfl | rfl | rfl) h1 h2
  all_goals first | exact absurd rfl h1 | exact absurd rfl h2 | rfl

theorem cert_index {E : Env} (hE : Documented E) : keyrep E [("kty", .str "RSA"), ("x5c", .list [.str "MIA="])] = .error .indexError := by
  obtain ⟨-, imp, hc, -⟩ := hE
  have h : der2rsa imp [0x30, 0x80] = .error .indexError := rfl
  have e : keyrep E [("kty", .str "RSA"), ("x5c", .list [.str "MIA="])] =
    (do let key ← E.R.fromCert [0x30, 0x80]; rsaSplit { keyCommon "RSA" rsaArgs [("kty", .bytes (utf8Encode "RSA")), ("x5c", .list [.str "MIA="])]
          (.val .none) (.rsa ⟨.str "", .str "", .str "", .str "", .str "", .str "", .str "", .str "", .str ""⟩) with key := .rsa key }
          ⟨.str "", .str "", .str "", .str "", .str "", .str "", .str "", .str "", .str ""⟩) := rfl
  rw [e, hc, h]
  rfl

theorem cert_value {E : Env} (hE : Documented E) : keyrep E [("kty", .str "RSA"), ("x5c", .list [.str ""])] = .error .valueError := by
  obtain ⟨-, imp, hc, -⟩ := hE
  have h : der2rsa imp [] = .error .valueError := rfl
  have e : keyrep E [("kty", .str "RSA"), ("x5c", .list [.str ""])] =
    (do let key ← E.R.fromCert []; rsaSplit { keyCommon "RSA" rsaArgs [("kty", .bytes (utf8Encode "RSA")), ("x5c", .list [.str ""])]
          (.val .none) (.rsa ⟨.str "", .str "", .str "", .str "", .str "", .str "", .str "", .str "", .str ""⟩) with key := .rsa key }
          ⟨.str "", .str "", .str "", .str "", .str "", .str "", .str "", .str "", .str ""⟩) := rfl
  rw [e, hc, h]
  rfl

theorem exSet_index {E : Env} (hE : Documented E) (ks : Keys) : (ks.loadDict E (exSetVal .indexError)).1 = .error .indexError := by
  have hl : ks.loadDict E (exSetVal .indexError) =
    Keys.loadDict.go E ks [.dict [("kty", .str "RSA"), ("x5c", .list [.str "MIA="])]] := rfl
  rw [hl, Keys.loadDict.go, cert_index hE]

/-- **C130.** `load_jwks` on texts from anywhere raises these exceptions and no others, whatever the set already holds. -/
theorem C130_set {E : Env} (hE : Documented E) (ks : Keys) (e : Exc) :
    (∃ text, (ks.loadJwks E text).1 = .error e) ↔ e ∈ SetExc := by
  refine ⟨fun ⟨t, h⟩ => raises_load hE ks t e h, fun h => ⟨exSetText e, ?_⟩⟩
  unfold Keys.loadJwks
  by_cases hj : e = .jsonDecodeError
  · subst hj; rw [exSet_broken]
  · rw [exSet_reads e h hj]
    by_cases hi : e = .indexError
    · subst hi; exact exSet_index hE ks
    · exact exSet_fails E ks e h hj hi

/-- The JSON objects with a given key type. -/
def Spec.JwkOf (kty : String) (d : PyDict) : Prop := PyDict.get? d "kty" = some (.str kty) ∧ ∀ p ∈ d, NoBytes p.2

/-- A JWK for each exception of an RSA key. -/
def exRsaBad : Exc → PyDict
  | .typeError => [("n", .int 1)]
  | .deSerializationNotPossible => [("n", .str "+"), ("e", .str "AQ")]
  | .attributeError => [("x5c", .str "MIA=")]
  | .keyError => [("x5c", .dict [("0", .str "MIA=")])]
  | .unicodeEncodeError => [("x5c", .list [.str "é"])]
  | .binasciiError => [("x5c", .list [.str "A"])]
  | .valueError => [("x5c", .list [.str ""])]
  | _ => [("x5c", .list [.str "MIA="])]

/-- A JWK for each exception of a symmetric key. -/
def exOctBad : Exc → PyVal
  | .typeError => .float "1.5"
  | .valueError => .list [.int 256]
  | .overflowError => .int (2 ^ 63)
  | .badSyntax => .str "+"
  | _ => .str "A\n"

/-- A JWK for each exception of an EC key. -/
def exEcBad : Exc → PyDict
  | .typeError => [("self", .int 1)]
  | .headerError => [("crv", .str "P-256"), ("x", .int 1), ("y", .int 1), ("kid", .int 1)]
  | .deSerializationNotPossible => [("crv", .str "P-256"), ("x", .str "AQ")]
  | .eccException => [("crv", .str "P-224"), ("x", .str "AQ"), ("y", .str "AQ")]
  | _ => [("key", .str "secret")]

/-- **C130.** By key type: exactly these exceptions. -/
theorem C130_types {E : Env} (hE : Documented E) (e : Exc) :
    ((∃ d, JwkOf "RSA" d ∧ keyrep E d = .error e) ↔ e ∈ RsaJwkExc) ∧
    ((∃ d, JwkOf "oct" d ∧ keyrep E d = .error e) ↔ e ∈ OctJwkExc) ∧
    ((∃ d, JwkOf "EC" d ∧ keyrep E d = .error e) ↔ e ∈ EcJwkExc) := by
  refine ⟨⟨fun ⟨d, ⟨hk, hn⟩, h⟩ => ?_, fun h => ⟨("kty", .str "RSA") :: exRsaBad e, ⟨rfl, ?_⟩, ?_⟩⟩,
    ⟨fun ⟨d, ⟨hk, hn⟩, h⟩ => ?_, fun h => ⟨[("kty", .str "oct"), ("k", exOctBad e)], ⟨rfl, ?_⟩, ?_⟩⟩,
    ⟨fun ⟨d, ⟨hk, hn⟩, h⟩ => ?_, fun h => ⟨("kty", .str "EC") :: exEcBad e, ⟨rfl, ?_⟩, ?_⟩⟩⟩
  · have hf := C130_family hE hn h
    simp [hk] at hf
    rcases hf with h | ⟨rfl, -⟩
    · exact h
    · decide
  · simp only [RsaJwkExc, List.mem_cons, List.not_mem_nil, or_false] at h
    rcases h with rfl | rfl | rfl | rfl | rfl | rfl | rfl | rfl <;>
      simp only [exRsaBad, List.mem_cons, List.not_mem_nil, or_false, forall_eq_or_imp, forall_eq] <;>
      refine ⟨.str _, ?_⟩ <;> first
        | exact .int _
        | exact ⟨.str _, .str _⟩
        | exact .str _
        | exact .list _ (by simp only [List.mem_cons, List.not_mem_nil, or_false, forall_eq]; exact .str _)
        | exact .dict _ (by simp only [List.mem_cons, List.not_mem_nil, or_false, forall_eq]; exact .str _)
  · simp only [RsaJwkExc, List.mem_cons, List.not_mem_nil, or_false] at h
    rcases h with rfl | rfl | rfl | rfl | rfl | rfl | rfl | rfl
    exacts [rfl, rfl, rfl, rfl, rfl, rfl, cert_value hE, cert_index hE]
  · have hf := C130_family hE hn h
    simp [hk] at hf
    rcases hf with h | ⟨rfl, -⟩
    · exact h
    · decide
  · simp only [OctJwkExc, List.mem_cons, List.not_mem_nil, or_false] at h
    rcases h with rfl | rfl | rfl | rfl | rfl <;>
      simp only [exOctBad, List.mem_cons, List.not_mem_nil, or_false, forall_eq_or_imp, forall_eq] <;>
      refine ⟨.str _, ?_⟩ <;> first
        | exact .float _
        | exact .int _
        | exact .str _
        | exact .list _ (by simp only [List.mem_cons, List.not_mem_nil, or_false, forall_eq]; exact .int _)
  · simp only [OctJwkExc, List.mem_cons, List.not_mem_nil, or_false] at h
    rcases h with rfl | rfl | rfl | rfl | rfl <;> rfl
  · have hf := C130_family hE hn h
    simp [hk] at hf
    rcases hf with h | ⟨rfl, -⟩
    · exact h
    · decide
  · simp only [EcJwkExc, List.mem_cons, List.not_mem_nil, or_false] at h
    rcases h with rfl | rfl | rfl | rfl | rfl <;>
      simp only [exEcBad, List.mem_cons, List.not_mem_nil, or_false, forall_eq_or_imp, forall_eq] <;>
      refine ⟨.str _, ?_⟩ <;> first
        | exact .int _
        | exact .str _
        | exact ⟨.str _, .str _⟩
        | exact ⟨.str _, .str _, .str _⟩
        | exact ⟨.str _, .int _, .int _, .int _⟩
  · simp only [EcJwkExc, List.mem_cons, List.not_mem_nil, or_false] at h
    rcases h with rfl | rfl | rfl | rfl | rfl <;> rfl

/-- Other key types: a key without material, unless the object has a member `self`. -/
theorem C130_other (E : Env) {d : PyDict} {kty : PyVal} (hk : PyDict.get? d "kty" = some kty)
    (h : kty ≠ .str "RSA" ∧ kty ≠ .str "oct" ∧ kty ≠ .str "EC") :
    (PyDict.has d "self" = true → keyrep E d = .error .typeError) ∧
    (PyDict.has d "self" = false → ∃ k, keyrep E d = .ok k ∧ k.mat = .plain) := by
  have ne : ∀ s : String, kty ≠ .str s → kty.pyEq (.str s) = false := by
    intro s h
    cases kty <;> simp_all [PyVal.pyEq]
  have hs : PyDict.has (d.map fun kv => (kv.1, asBytes kv.2)) "self" = PyDict.has d "self" := by
    unfold PyDict.has
    rw [get?_map]
    cases PyDict.get? d "self" <;> rfl
  unfold keyrep
  simp only [hk, ne _ h.1, ne _ h.2.1, ne _ h.2.2, Bool.false_eq_true, if_false]
  unfold plainKeyNew
  rw [hs]
  refine ⟨fun h => by rw [h]; rfl, fun h => ⟨_, by rw [h]; rfl, rfl⟩⟩

/-- The standard library with certificates read by `der2rsa`. -/
def docEnv : Env := { stdEnv with R := Real.rsa (der2rsa fun _ => .error .valueError) }

theorem docEnv_documented : Documented docEnv :=
  ⟨⟨rfl, rfl, _, rfl⟩, _, fun _ => rfl, fun _ => raises_err (by decide)⟩

example (ks : Keys) : (ks.loadJwks docEnv (exSetText .eccException)).1 = .error .eccException :=
  by
    unfold Keys.loadJwks
    rw [exSet_reads _ (by decide) (by decide)]
    exact exSet_fails _ _ _ (by decide) (by decide) (by decide)

example : keyrep docEnv [("kty", .str "RSA"), ("x5c", .dict [("0", .str "MIA=")])] = .error .keyError := rfl

end Verif
