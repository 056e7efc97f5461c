import Verif.Props.JwkLoad
import Verif.Props.Curves
import Verif.Proofs.JwsJson
/-
Properties C82–C84: `to_dict`, `jwk_wrap` and key sets (`/repo/src/jwkest/jwk.py`).
-/

namespace Verif
open Spec

/-! ### C82: `to_dict` -/

/-- `to_dict` is the private serialization with the members the class does not know added; where both
have a member the extra one wins. -/
theorem C82_to_dict (k : Key) (d ser : PyDict) (hn : (k.extra.map Prod.fst).Nodup)
    (hs : k.serialize true = .ok (.dict ser)) (h : k.toDict = .ok d) (s : String) :
    PyDict.get? d s = (PyDict.get? k.extra s).or (PyDict.get? ser s) := by
  simp only [Key.toDict, hs, Bind.bind, Except.bind, Except.ok.injEq] at h
  rw [← h, get?_update _ _ hn]
  unfold Merged
  cases PyDict.get? k.extra s <;> rfl

/-- A plain `Key` has no dictionary form. -/
theorem C82_plain (k : Key) (h : classOf k = .plain) : k.toDict = .error .attributeError := by
  unfold classOf at h
  split at h <;> try (simp at h)
  rename_i hm
  simp [Key.toDict, Key.serialize, hm, Bind.bind, Except.bind]

/-- Serialization leaves the extra members out. -/
theorem C82_serialize (k : Key) (x : PyDict) (priv : Bool) :
    ({ k with extra := x }).serialize priv = k.serialize priv := rfl

/-- The parameters of the four constructors by name (`jwk.py:247, 422-424, 570-572, 670-671`). -/
def parameterNames : Class → List String
  | .plain => ["kty", "alg", "use", "kid", "key", "x5c", "x5t", "x5u"]
  | .rsa => ["kty", "alg", "use", "kid", "key", "x5c", "x5t", "x5u", "n", "e", "d", "p", "q", "dp", "dq",
      "di", "qi"]
  | .ec => ["kty", "alg", "use", "kid", "key", "x5c", "x5t", "x5u", "crv", "x", "y", "d", "curve"]
  | .sym => ["kty", "alg", "use", "kid", "key", "x5c", "x5t", "x5u", "k", "mtrl"]

theorem get?_filter (d : PyDict) (p : String → Bool) (s : String) :
    PyDict.get? (d.filter fun kv => p kv.1) s = if p s then PyDict.get? d s else none := by
  induction d with
  | nil => simp [PyDict.get?]
  | cons kv d ih =>
    obtain ⟨a, b⟩ := kv
    rw [List.filter_cons, get?_cons]
    by_cases hp : p a = true
    · simp only [hp, if_true, get?_cons, ih]
      by_cases hs : s = a
      · subst hs; simp [hp]
      · simp [hs]
    · simp only [hp, Bool.false_eq_true, if_false, ih]
      by_cases hs : s = a
      · subst hs; simp [hp]
      · simp [hs]

theorem rsaSplit_extra {k k' : Key} {m : RsaMat} (h : rsaSplit k m = .ok k') :
    k'.extra = k.extra ∧ classOf k' = .rsa := by
  unfold rsaSplit at h
  split at h
  · simp only [Except.ok.injEq] at h
    rw [← h]; exact ⟨rfl, rfl⟩
  · split at h <;> simp at h

theorem valueErrorTo_ok {α : Type} {e : Exc} {x : PyM α} {a : α} (h : valueErrorTo e x = .ok a) :
    x = .ok a := by
  unfold valueErrorTo at h
  split at h
  · split at h <;> simp at h
  · exact h

theorem rsaDeserialize_extra {E : Env} {k k' : Key} {m : RsaMat} (h : rsaDeserialize E k m = .ok k') :
    k'.extra = k.extra ∧ classOf k' = .rsa := by
  unfold rsaDeserialize at h
  split at h
  · have h := valueErrorTo_ok h
    simp only [Bind.bind] at h
    obtain ⟨_, _, h⟩ := bind_ok_iff.mp h
    obtain ⟨_, _, h⟩ := bind_ok_iff.mp h
    obtain ⟨_, _, h⟩ := bind_ok_iff.mp h
    obtain ⟨_, _, h⟩ := bind_ok_iff.mp h
    obtain ⟨_, _, h⟩ := bind_ok_iff.mp h
    obtain ⟨_, _, h⟩ := bind_ok_iff.mp h
    obtain ⟨_, _, h⟩ := bind_ok_iff.mp h
    obtain ⟨_, _, h⟩ := bind_ok_iff.mp h
    obtain ⟨_, _, h⟩ := bind_ok_iff.mp h
    obtain ⟨_, _, h⟩ := bind_ok_iff.mp h
    obtain ⟨_, _, h⟩ := bind_ok_iff.mp h
    simp only [Except.ok.injEq] at h
    rw [← h]; exact ⟨rfl, rfl⟩
  split at h
  · simp only [Bind.bind] at h
    obtain ⟨_, _, h⟩ := bind_ok_iff.mp h
    obtain ⟨_, _, h⟩ := bind_ok_iff.mp h
    have fin : ∀ {der : Bytes}, ((E.R.fromCert der).bind fun key => rsaSplit { k with key := .rsa key } m) =
        .ok k' → k'.extra = k.extra ∧ classOf k' = .rsa := by
      intro der h
      obtain ⟨_, _, h⟩ := bind_ok_iff.mp h
      have := rsaSplit_extra h
      exact this
    split at h
    · split at h
      · obtain ⟨_, _, h⟩ := bind_ok_iff.mp h
        obtain ⟨_, _, h⟩ := bind_ok_iff.mp h
        split at h
        · exact fin h
        · simp [Except.bind] at h
      · simp [Except.bind] at h
    · exact fin h
  · simp at h

theorem rsaKeyNew_extra {E : Env} {kw : PyDict} {key : KObj} {k : Key} (h : rsaKeyNew E kw key = .ok k) :
    k.extra = (kw.filter fun kv => !(rsaArgs.contains kv.1)) ∧ classOf k = .rsa := by
  unfold rsaKeyNew at h
  split at h
  · simp at h
  simp only [Bind.bind] at h
  obtain ⟨_, _, h⟩ := bind_ok_iff.mp h
  obtain ⟨_, _, h⟩ := bind_ok_iff.mp h
  obtain ⟨_, _, h⟩ := bind_ok_iff.mp h
  split at h
  · exact rsaDeserialize_extra h
  split at h
  · exact rsaSplit_extra h
  · simp only [Except.ok.injEq] at h
    rw [← h]; exact ⟨rfl, rfl⟩

theorem ecKeyNew_extra {kw : PyDict} {key curve : KObj} {rnd : Nat} {k : Key}
    (h : ecKeyNew kw key curve rnd = .ok k) :
    k.extra = (kw.filter fun kv => !(ecArgs.contains kv.1)) ∧ classOf k = .ec := by
  unfold ecKeyNew at h
  split at h
  · simp at h
  simp only [Bind.bind] at h
  split at h
  · obtain ⟨⟨vs, ok⟩, _, h⟩ := bind_ok_iff.mp h
    have fin : ∀ {vs : List PyVal}, (match vs with
        | [x, y, d] => ecDeserialize (keyCommon "EC" ecArgs kw key (.ec (kwGet kw "crv" (.str ""))
            (kwGet kw "x" (.str "")) (kwGet kw "y" (.str "")) (kwGet kw "d" (.str "")) curve))
            (kwGet kw "crv" (.str "")) x y d
        | _ => .error .assertionError) = .ok k →
        k.extra = (kw.filter fun kv => !(ecArgs.contains kv.1)) ∧ classOf k = .ec := by
      intro vs h
      split at h
      · simp only [ecDeserialize, Bind.bind] at h
        obtain ⟨_, _, h⟩ := bind_ok_iff.mp h
        obtain ⟨_, _, h⟩ := bind_ok_iff.mp h
        obtain ⟨_, _, h⟩ := bind_ok_iff.mp h
        obtain ⟨_, _, h⟩ := bind_ok_iff.mp h
        simp only [Except.ok.injEq] at h
        rw [← h]; exact ⟨rfl, rfl⟩
      · simp at h
    simp only at h
    split at h
    · obtain ⟨_, _, h⟩ := bind_ok_iff.mp h
      exact fin h
    · exact fin h
  split at h
  · split at h
    · unfold ecLoadKey at h
      split at h
      · split at h
        · simp only [Except.ok.injEq] at h
          rw [← h]; exact ⟨rfl, rfl⟩
        · simp at h
      · simp at h
    · simp only [Except.ok.injEq] at h
      rw [← h]; exact ⟨rfl, rfl⟩
  · simp only [Except.ok.injEq] at h
    rw [← h]; exact ⟨rfl, rfl⟩

theorem symKeyNew_extra {kw : PyDict} {key : PyVal} {k : Key} (h : symKeyNew kw key = .ok k) :
    k.extra = (kw.filter fun kv => !(symArgs.contains kv.1)) ∧ classOf k = .sym := by
  unfold symKeyNew at h
  split at h
  · simp at h
  simp only [Bind.bind] at h
  split at h
  · obtain ⟨_, _, h⟩ := bind_ok_iff.mp h
    obtain ⟨_, _, h⟩ := bind_ok_iff.mp h
    simp only [Except.ok.injEq] at h
    rw [← h]; exact ⟨rfl, rfl⟩
  · simp only [Except.ok.injEq] at h
    rw [← h]; exact ⟨rfl, rfl⟩

theorem keyrep_extra {E : Env} {d : PyDict} {k : Key} (h : keyrep E d = .ok k) :
    ∃ known : List String, known = parameterNames (classOf k) ∧
      k.extra = ((d.map fun kv => (kv.1, asBytes kv.2)).filter fun kv => !(known.contains kv.1)) := by
  unfold keyrep at h
  simp only at h
  split at h
  · simp at h
  split at h
  · obtain ⟨h1, h2⟩ := rsaKeyNew_extra h
    exact ⟨_, by rw [h2]; rfl, h1⟩
  split at h
  · obtain ⟨h1, h2⟩ := symKeyNew_extra h
    exact ⟨_, by rw [h2]; rfl, h1⟩
  split at h
  · obtain ⟨h1, h2⟩ := ecKeyNew_extra h
    exact ⟨_, by rw [h2]; rfl, h1⟩
  · unfold plainKeyNew at h
    split at h
    · simp at h
    · simp only [Except.ok.injEq] at h
      exact ⟨keyArgs, by rw [← h]; rfl, by rw [← h]; rfl⟩

/-- The extra members of a key made by `keyrep` are the members whose names are not parameters of the
class, text as bytes. -/
theorem C82_extra (E : Env) (d : PyDict) (k : Key) (h : keyrep E d = .ok k) (s : String) :
    PyDict.get? k.extra s =
      if s ∈ parameterNames (classOf k) then none else (PyDict.get? d s).map asBytes := by
  obtain ⟨known, hk, hx⟩ := keyrep_extra h
  rw [hx, get?_filter _ (fun s => !(known.contains s)), get?_map, ← hk]
  by_cases hs : s ∈ known <;> simp [hs]

theorem keyrep_extra_nodup {E : Env} {d : PyDict} {k : Key} (h : keyrep E d = .ok k)
    (hn : (d.map Prod.fst).Nodup) : (k.extra.map Prod.fst).Nodup := by
  obtain ⟨known, -, hx⟩ := keyrep_extra h
  rw [hx]
  have h1 : ((d.map fun kv => (kv.1, asBytes kv.2)).map Prod.fst) = d.map Prod.fst := by
    simp [List.map_map, Function.comp_def]
  have h2 := (List.filter_sublist (l := d.map fun kv => (kv.1, asBytes kv.2))
    (p := fun kv => !(known.contains kv.1))).map Prod.fst
  rw [h1] at h2
  exact hn.sublist h2

/-- The extra members never displace a serialized one. -/
theorem C82_known (E : Env) (d dict ser : PyDict) (k : Key) (hn : (d.map Prod.fst).Nodup)
    (h : keyrep E d = .ok k) (hs : k.serialize true = .ok (.dict ser)) (hd : k.toDict = .ok dict)
    (s : String) :
    PyDict.get? dict s = if s ∈ parameterNames (classOf k) then PyDict.get? ser s
      else ((PyDict.get? d s).map asBytes).or (PyDict.get? ser s) := by
  rw [C82_to_dict k dict ser (keyrep_extra_nodup h hn) hs hd, C82_extra E d k h]
  split <;> rfl

theorem dumpD_bytes (is ks : List Char) : ∀ {d : List (String × PyVal)} {s : String} {b : Bytes},
    (s, PyVal.bytes b) ∈ d → ∀ out, dumpD is ks d ≠ .ok out := by
  intro d
  induction d with
  | nil => intro s b h; simp at h
  | cons kv d ih =>
    obtain ⟨a, v⟩ := kv
    intro s b h out ho
    simp only [dumpD, Bind.bind] at ho
    obtain ⟨x, hx, ho⟩ := bind_ok_iff.mp ho
    obtain ⟨y, hy, ho⟩ := bind_ok_iff.mp ho
    rcases List.mem_cons.mp h with h | h
    · simp only [Prod.mk.injEq] at h
      rw [← h.2] at hx
      simp [dumpV] at hx
    · exact ih h y hy

theorem mem_of_get? {d : PyDict} {s : String} {v : PyVal} (h : PyDict.get? d s = some v) : (s, v) ∈ d := by
  induction d with
  | nil => simp [PyDict.get?] at h
  | cons kv d ih =>
    obtain ⟨a, b⟩ := kv
    rw [get?_cons] at h
    split at h
    · rename_i hs
      simp only [Option.some.injEq] at h
      rw [hs, h]; simp
    · exact List.mem_cons_of_mem _ (ih h)

theorem dumpV_bytes (is ks : List Char) {d : PyDict} {s : String} {b : Bytes}
    (h : (s, PyVal.bytes b) ∈ d) (out : List Char) : dumpV is ks (.dict d) ≠ .ok out := by
  cases d with
  | nil => simp at h
  | cons kv d =>
    obtain ⟨a, v⟩ := kv
    intro ho
    simp only [dumpV, Bind.bind] at ho
    obtain ⟨x, hx, ho⟩ := bind_ok_iff.mp ho
    obtain ⟨y, hy, ho⟩ := bind_ok_iff.mp ho
    rcases List.mem_cons.mp h with h | h
    · simp only [Prod.mk.injEq] at h
      rw [← h.2] at hx
      simp [dumpV] at hx
    · exact dumpD_bytes is ks h y hy

/-- The dictionary form of a key loaded with a text member its class does not know is not JSON: the
member is bytes there. -/
theorem C82_not_json (E : Env) (d dict : PyDict) (k : Key) (s t : String)
    (hn : (d.map Prod.fst).Nodup) (h : keyrep E d = .ok k)
    (hs : s ∉ parameterNames (classOf k)) (ht : PyDict.get? d s = some (.str t))
    (hd : k.toDict = .ok dict) (out : String) : jsonDumps (.dict dict) ≠ .ok out := by
  have hx := C82_extra E d k h s
  rw [if_neg hs, ht] at hx
  simp only [Option.map_some, asBytes] at hx
  obtain ⟨ser, hser⟩ : ∃ ser, k.serialize true = .ok (.dict ser) := by
    simp only [Key.toDict, Bind.bind] at hd
    obtain ⟨v, hv, hd⟩ := bind_ok_iff.mp hd
    split at hd
    · exact ⟨_, hv⟩
    · simp at hd
  have hg := C82_to_dict k dict ser (keyrep_extra_nodup h hn) hser hd s
  rw [hx, Option.some_or] at hg
  intro hout
  simp only [jsonDumps] at hout
  cases hv : dumpV [',', ' '] [':', ' '] (.dict dict) with
  | error e => simp [hv, Except.map] at hout
  | ok o => exact dumpV_bytes _ _ (mem_of_get? hg) o hv

example : ∃ k dict, keyrep toyEnv [("kty", .str "oct"), ("k", .str "AQID"), ("note", .str "x")] = .ok k ∧
    k.toDict = .ok dict ∧ ∀ out, jsonDumps (.dict dict) ≠ .ok out := by
  have h : (keyrep toyEnv [("kty", .str "oct"), ("k", .str "AQID"), ("note", .str "x")]).isOk = true := by
    decide +kernel
  obtain ⟨k, hk⟩ : ∃ k, keyrep toyEnv [("kty", .str "oct"), ("k", .str "AQID"), ("note", .str "x")] = .ok k := by
    cases hk : keyrep toyEnv [("kty", .str "oct"), ("k", .str "AQID"), ("note", .str "x")] with
    | ok k => exact ⟨k, rfl⟩
    | error e => rw [hk] at h; simp [Except.isOk, Except.toBool] at h
  have h2 : ((keyrep toyEnv [("kty", .str "oct"), ("k", .str "AQID"), ("note", .str "x")]).bind
      Key.toDict).isOk = true := by decide +kernel
  rw [hk] at h2
  simp only [Except.bind] at h2
  cases hd : k.toDict with
  | error e => rw [hd] at h2; simp [Except.isOk, Except.toBool] at h2
  | ok dict =>
    refine ⟨k, dict, hk, hd, C82_not_json toyEnv _ dict k "note" "x" (by decide) hk ?_ rfl hd⟩
    cases classOf k <;> decide

/-! ### C83: `jwk_wrap` -/

/-- The key `jwk_wrap` makes of an RSA key object. -/
def wrappedRsa (use kid : String) (r : RsaKey) (m : RsaMat) : Key :=
  { keyCommon "RSA" rsaArgs [("use", .str use), ("kid", .str kid)] (.rsa r)
      (.rsa ⟨.str "", .str "", .str "", .str "", .str "", .str "", .str "", .str "", .str ""⟩) with
    mat := .rsa m }

/-- A PyCryptodome key becomes an `RSAKey` with that key, its numbers and the given labels. -/
theorem C83_rsa (E : Env) (r : RsaKey) (use kid : String) (rnd : Nat) (hn : 0 < r.n) (he : 0 < r.e) :
    ∃ k m, jwkWrap E (.rsa r) (.str use) (.str kid) rnd = .ok k ∧ k.key = .rsa r ∧ k.mat = .rsa m ∧
      k.kty = .str "RSA" ∧ k.use = .str use ∧ k.kid = .str kid ∧ k.alg = .str "" ∧ k.extra = [] ∧
      m.n = .int r.n ∧ m.e = .int r.e ∧
      (r.priv = none → m.d = .str "" ∧ m.p = .str "" ∧ m.q = .str "") ∧
      (∀ d p q, r.priv = some (d, p, q) → m.d = .int d ∧ (p ≠ 0 → m.p = .int p) ∧
        (q ≠ 0 → m.q = .int q)) := by
  have h1 : rsaKeyNew E [("use", .str use), ("kid", .str kid)] (.val .none) =
      .ok (keyCommon "RSA" rsaArgs [("use", .str use), ("kid", .str kid)] (.val .none)
        (.rsa ⟨.str "", .str "", .str "", .str "", .str "", .str "", .str "", .str "", .str ""⟩)) := rfl
  obtain ⟨n, hn'⟩ : ∃ n : Nat, r.n = n := ⟨r.n.toNat, by omega⟩
  obtain ⟨e, he'⟩ : ∃ e : Nat, r.e = e := ⟨r.e.toNat, by omega⟩
  have pn : 0 < n := by omega
  have pe : 0 < e := by omega
  have ser : ∀ (k : Key) (m : RsaMat), k.key.truthy = true → k.mat = .rsa m → m.n = .int n →
      m.e = .int e → ∃ v, k.serializeDflt = .ok v := by
    intro k m hk hm h2 h3
    have h4 := serLong_holds (v := m.n) (o := some n) (h2 ▸ .number pn)
    have h5 := serLong_holds (v := m.e) (o := some e) (h3 ▸ .number pe)
    simp [Key.serializeDflt, hm, Key.serialize, rsaSerialize, hk, h4, h5, Bind.bind, Except.bind,
      Except.map]
  cases hp : r.priv with
  | none =>
    obtain ⟨v, hv⟩ := ser (wrappedRsa use kid r
      ⟨.int r.n, .int r.e, .str "", .str "", .str "", .str "", .str "", .str "", .str ""⟩)
      _ rfl rfl (by rw [hn']) (by rw [he'])
    refine ⟨wrappedRsa use kid r _, ⟨.int r.n, .int r.e, .str "", .str "", .str "", .str "", .str "", .str "", .str ""⟩, ?_, rfl,
      rfl, rfl, rfl, rfl, rfl, rfl, rfl, rfl, fun _ => ⟨rfl, rfl, rfl⟩,
      fun d p q h => by simp at h⟩
    simp only [jwkWrap, h1, Bind.bind, Except.bind, keyCommon, rsaSplit, hp, wrappedRsa] at hv ⊢
    rw [hv]
  | some x =>
    obtain ⟨d, p, q⟩ := x
    obtain ⟨v, hv⟩ := ser (wrappedRsa use kid r ⟨.int r.n, .int r.e, .int d,
      if p ≠ 0 then .int p else .str "", if q ≠ 0 then .int q else .str "", .str "", .str "", .str "",
      .str ""⟩)
      _ rfl rfl (by rw [hn']) (by rw [he'])
    refine ⟨wrappedRsa use kid r _, ⟨.int r.n, .int r.e, .int d, if p ≠ 0 then .int p else .str "",
      if q ≠ 0 then .int q else .str "", .str "", .str "", .str "", .str ""⟩, ?_, rfl, rfl, rfl, rfl,
      rfl, rfl, rfl, rfl, rfl, fun h => by simp at h, ?_⟩
    · simp only [jwkWrap, h1, Bind.bind, Except.bind, keyCommon, rsaSplit, hp, wrappedRsa] at hv ⊢
      rw [hv]
    · intro d' p' q' h
      simp only [Option.some.injEq, Prod.mk.injEq] at h
      obtain ⟨rfl, rfl, rfl⟩ := h
      exact ⟨rfl, fun h => by simp [h], fun h => by simp [h]⟩

example : ∃ k m, jwkWrap toyEnv (.rsa ⟨3233, 17, some (2753, 61, 53)⟩) (.str "sig") (.str "k") 0 = .ok k ∧
    k.mat = .rsa m ∧ m.d = .int 2753 := by
  obtain ⟨k, m, h, _, hm, _, _, _, _, _, _, _, _, h2⟩ :=
    C83_rsa toyEnv ⟨3233, 17, some (2753, 61, 53)⟩ "sig" "k" 0 (by decide) (by decide)
  exact ⟨k, m, h, hm, (h2 _ _ _ rfl).1⟩

/-- A text becomes a `SYMKey` whose secret is its UTF-8 encoding. -/
theorem C83_text (E : Env) (s use kid : String) (rnd : Nat) :
    ∃ k, jwkWrap E (.val (.str s)) (.str use) (.str kid) rnd = .ok k ∧
      k.key = .val (.bytes (utf8Encode s)) ∧ classOf k = .sym ∧ k.kty = .str "oct" ∧
      k.use = .str use ∧ k.kid = .str kid ∧ k.alg = .str "" ∧ k.extra = [] := by
  refine ⟨keyCommon "oct" symArgs [("use", .str use), ("kid", .str kid)] (.val (.bytes (utf8Encode s)))
    (.sym (.str "")), ?_, rfl, rfl, rfl, rfl, rfl, rfl, rfl⟩
  have h1 : symKeyNew [("use", .str use), ("kid", .str kid)] (.str s) =
      .ok (keyCommon "oct" symArgs [("use", .str use), ("kid", .str kid)]
        (.val (.bytes (utf8Encode s))) (.sym (.str ""))) := by
    unfold symKeyNew
    rw [if_neg (by simp [PyDict.has, PyDict.get?])]
    have hk : kwGet [("use", PyVal.str use), ("kid", PyVal.str kid)] "k" (.str "") = .str "" := rfl
    simp only [hk, asBytes]
    rw [if_neg (by simp [PyVal.truthy])]
  simp only [jwkWrap, h1, Bind.bind, Except.bind]
  rfl

/-- A curve becomes an `ECKey` with a fresh key pair of that curve. -/
theorem C83_curve (E : Env) (C : NistCurve) (hC : SoundCurve C) (use kid : String) (rnd : Nat) (k : Key)
    (h : jwkWrap E (.curve C) (.str use) (.str kid) rnd = .ok k) :
    ∃ (x y : Int) (d : Nat), k.mat = .ec (.str "") (.int x) (.int y) (.int d) (.curve C) ∧
      0 < d ∧ d < C.N ∧ C.publicKeyFor d = some (x, y) ∧
      k.kty = .str "EC" ∧ k.use = .str use ∧ k.kid = .str kid ∧ k.alg = .str "" ∧ k.extra = [] := by
  obtain ⟨h0, hN, hpub, x, y, hxy, -⟩ := NistCurve.C56_key_pair hC rnd
  have h1 : ecKeyNew [("use", .str use), ("kid", .str kid)] (.val .none) (.val .none) rnd =
      .ok (keyCommon "EC" ecArgs [("use", .str use), ("kid", .str kid)] (.val .none)
        (.ec (.str "") (.str "") (.str "") (.str "") (.val .none))) := rfl
  simp only [jwkWrap, h1, Bind.bind, Except.bind, ecLoadKey] at h
  generalize hkp : C.keyPair rnd = kp at h h0 hN hpub hxy
  obtain ⟨d, pt⟩ := kp
  simp only at h h0 hN hpub hxy
  subst hxy
  simp only at h
  split at h
  · simp at h
  · simp only [Except.ok.injEq] at h
    refine ⟨x, y, d, by rw [← h], h0, hN, hpub.symm, ?_, ?_, ?_, ?_, ?_⟩ <;> rw [← h] <;> rfl

/-- Such a key is obtained whenever neither coordinate of the generated point is zero. -/
theorem C83_curve_ok (E : Env) (C : NistCurve) (hC : SoundCurve C) (use kid : String) (rnd : Nat)
    (hz : ∀ x y, (C.keyPair rnd).2 = some (x, y) → x ≠ 0 ∧ y ≠ 0) :
    ∃ k, jwkWrap E (.curve C) (.str use) (.str kid) rnd = .ok k := by
  obtain ⟨h0, hN, hpub, x, y, hxy, hx0, -, hy0, -⟩ := NistCurve.C56_key_pair hC rnd
  obtain ⟨hxn, hyn⟩ := hz x y hxy
  have h1 : ecKeyNew [("use", .str use), ("kid", .str kid)] (.val .none) (.val .none) rnd =
      .ok (keyCommon "EC" ecArgs [("use", .str use), ("kid", .str kid)] (.val .none)
        (.ec (.str "") (.str "") (.str "") (.str "") (.val .none))) := rfl
  obtain ⟨X, rfl⟩ : ∃ X : Nat, x = X := ⟨x.toNat, by omega⟩
  obtain ⟨Y, rfl⟩ : ∃ Y : Nat, y = Y := ⟨y.toNat, by omega⟩
  simp only [jwkWrap, h1, Bind.bind, Except.bind, ecLoadKey]
  generalize hkp : C.keyPair rnd = kp at *
  obtain ⟨d, pt⟩ := kp
  simp only at h0 hN hpub hxy
  subst hxy
  simp only
  have hser := ec_serialize (k := { keyCommon "EC" ecArgs [("use", .str use), ("kid", .str kid)]
      (.val .none) (.ec (.str "") (.str "") (.str "") (.str "") (.val .none)) with
      mat := .ec (.str "") (.int X) (.int Y) (.int d) (.curve C) }) (D := some d) rfl
    (.number (n := X) (by omega)) (.number (n := Y) (by omega)) (.number h0) false
  simp only [keyCommon] at hser ⊢
  simp only [Key.serializeDflt, hser]
  exact ⟨_, rfl⟩

example : ∃ k x y, jwkWrap toyEnv (.curve P256) (.str "sig") (.str "e") 0 = .ok k ∧
    ∃ d : Nat, k.mat = .ec (.str "") (.int x) (.int y) (.int d) (.curve P256) ∧
      P256.publicKeyFor d = some (x, y) := by
  have h0 : ((P256.keyPair 0).2.map fun p => decide (p.1 = 0 ∨ p.2 = 0)) = some false := by
    decide +kernel
  obtain ⟨k, hk⟩ := C83_curve_ok toyEnv P256 C55_P256 "sig" "e" 0 (by
    intro x y h
    rw [h] at h0
    simpa using h0)
  obtain ⟨x, y, d, hm, -, -, hp, -⟩ := C83_curve toyEnv P256 C55_P256 "sig" "e" 0 k hk
  exact ⟨k, x, y, hk, d, hm, hp⟩

/-- Anything else, bytes for example, is refused. -/
theorem C83_other (E : Env) (v : PyVal) (use kid : PyVal) (rnd : Nat) (h : ∀ s, v ≠ .str s) :
    jwkWrap E (.val v) use kid rnd = .error .generic := by
  cases v <;> first | rfl | exact absurd rfl (h _)

/-! ### C84: key sets -/

/-- Text values under distinct names. -/
structure TextDict (d : PyDict) : Prop where
  nodup : (d.map Prod.fst).Nodup
  text : ∀ p ∈ d, ∃ s, p.2 = .str s

theorem TextDict.set {d : PyDict} (h : TextDict d) (s t : String) : TextDict (PyDict.set d s (.str t)) :=
  ⟨PyDict.set_keys_nodup d s _ h.nodup, by
    have ht := h.text
    clear h
    induction d with
    | nil => simp [PyDict.set]
    | cons kv d ih =>
      obtain ⟨a, b⟩ := kv
      simp only [PyDict.set]
      split
      · intro p hp
        rcases List.mem_cons.mp hp with rfl | hp
        · exact ⟨_, rfl⟩
        · exact ht p (by simp [hp])
      · intro p hp
        rcases List.mem_cons.mp hp with rfl | hp
        · exact ht _ (by simp)
        · exact ih (fun p hp => ht p (by simp [hp])) p hp⟩

theorem TextDict.optSet {d : PyDict} (h : TextDict d) (s : String) (o : Option Nat) :
    TextDict (optSet d s o) := by
  cases o with
  | none => exact h
  | some n => exact h.set _ _

theorem TextDict.common {k : Key} {kty : String} (h : TextLabels k kty) : TextDict k.common := by
  obtain ⟨h1, ⟨a, h2⟩, ⟨b, h3⟩, ⟨c, h4⟩⟩ := h
  unfold Key.common
  rw [h1, h2, h3, h4]
  constructor
  · by_cases ha : (PyVal.str a).truthy = true <;> by_cases hb : (PyVal.str b).truthy = true <;>
      by_cases hc : (PyVal.str c).truthy = true <;> simp [ha, hb, hc]
  · by_cases ha : (PyVal.str a).truthy = true <;> by_cases hb : (PyVal.str b).truthy = true <;>
      by_cases hc : (PyVal.str c).truthy = true <;> simp [ha, hb, hc]

theorem b2sConvD_text : ∀ {d : PyDict}, (∀ p ∈ d, ∃ s, p.2 = PyVal.str s) → b2sConvD d = .ok d := by
  intro d
  induction d with
  | nil => intro _; rfl
  | cons kv d ih =>
    obtain ⟨a, b⟩ := kv
    intro h
    obtain ⟨s, hs⟩ := h (a, b) (by simp)
    simp only at hs
    subst hs
    simp [b2sConvD, b2sConv, Bind.bind, Except.bind, ih fun p hp => h p (by simp [hp])]

theorem jsonableD_text : ∀ {d : PyDict}, (∀ p ∈ d, ∃ s, p.2 = PyVal.str s) →
    PyVal.jsonableD d = true := by
  intro d
  induction d with
  | nil => intro _; rfl
  | cons kv d ih =>
    obtain ⟨a, b⟩ := kv
    intro h
    obtain ⟨s, hs⟩ := h (a, b) (by simp)
    simp only at hs
    subst hs
    simp [PyVal.jsonableD, PyVal.jsonable, ih fun p hp => h p (by simp [hp])]

/-- The keys a set can be exported with: text labels and proper key material of the class. -/
inductive Exportable (E : Env) : Key → Prop
  | rsa {k m N r} (hm : k.mat = .rsa m) (hN : RsaHolds m N) (ht : TextLabels k "RSA")
      (hk : k.key.truthy = true) (hr : E.R.construct [(N.n : Int), (N.e : Int)] = .ok r) : Exportable E k
  | ec {k crv x y d c X Y D} (hm : k.mat = .ec crv x y d (.curve c)) (hx : Holds x (some X))
      (hy : Holds y (some Y)) (hd : Holds d D) (hc : curveByName c.name = .ok c)
      (ht : TextLabels k "EC") : Exportable E k
  | sym {k kk secret} (hm : k.mat = .sym kk) (hk : k.key = .val (.bytes secret)) (hne : secret ≠ [])
      (ht : TextLabels k "oct") : Exportable E k

/-- `b` is what a set containing `a` gives back after export and import: the public half of an RSA or
EC key, all of a symmetric key, under the same labels. -/
inductive Exported (E : Env) : Key → Key → Prop
  | rsa {a b m m' N r} (ha : a.mat = .rsa m) (hN : RsaHolds m N) (hb : b.mat = .rsa m')
      (hm : RsaHolds m' ⟨N.n, N.e, none, none, none, none, none, none, none⟩)
      (hr : E.R.construct [(N.n : Int), (N.e : Int)] = .ok r) (hk : b.key = .rsa r)
      (hl : SameLabels b a) : Exported E a b
  | ec {a b crv x y d c X Y} (ha : a.mat = .ec crv x y d (.curve c)) (hx : Holds x (some X))
      (hy : Holds y (some Y))
      (hb : b.mat = .ec (.bytes (utf8Encode c.name)) (.int X) (.int Y) (.str "") (.curve c))
      (hl : SameLabels b a) : Exported E a b
  | sym {a b kk secret} (ha : a.mat = .sym kk) (hk : a.key = .val (.bytes secret))
      (hb : b.mat = .sym (.bytes (b64e secret))) (hk' : b.key = .val (.bytes secret))
      (hl : SameLabels b a) : Exported E a b

theorem export_one (E : Env) (k : Key) (h : Exportable E k) :
    ∃ d k', k.serializeDflt = .ok (.dict d) ∧ TextDict d ∧ keyrep E d = .ok k' ∧ Exported E k k' := by
  cases h with
  | rsa hm hN ht hk hr =>
    obtain ⟨d, k', m', h1, h2, h3, h4, h5, h6⟩ := C28_rsa_public E k _ _ hm hN ht hk _ hr
    refine ⟨d, k', by simpa [Key.serializeDflt, hm] using h1, ?_, h2, .rsa hm hN h5 h6 hr h4 h3⟩
    simp only [Key.serialize, hm, rsaSerialize, hk, Bool.true_eq_false, if_false,
      Bind.bind, Except.bind, serLong_holds hN.n, serLong_holds hN.e, Except.map,
      Bool.false_eq_true, Except.ok.injEq, PyVal.dict.injEq] at h1
    rw [← h1]
    exact ((TextDict.common ht).optSet _ _).optSet _ _
  | ec hm hx hy hd hc ht =>
    obtain ⟨d, k', d', h1, h2, h3, h4, h5, -⟩ := C28_ec_keyrep E k _ _ _ _ _ _ _ _ hm hx hy hd hc ht false
    rw [h5 (.inl rfl)] at h4
    refine ⟨d, k', by simpa [Key.serializeDflt, hm] using h1, ?_, h2, .ec hm hx hy h4 h3⟩
    rw [ec_serialize hm hx hy hd false] at h1
    simp only [Except.ok.injEq, PyVal.dict.injEq] at h1
    rw [← h1, ecDict]
    exact ((((TextDict.common ht).set _ _).set _ _).set _ _).optSet _ _
  | @sym _ secret hm hk hne ht =>
    obtain ⟨d, k', h1, h2, h3, h4, h5⟩ := C28_sym E k _ _ hm hk hne ht true
    refine ⟨d, k', by simpa [Key.serializeDflt, hm] using h1, ?_, h2, .sym hm hk h5 h4 h3⟩
    obtain ⟨t, ht1⟩ := asciiDecode_of_lt (b := b64e secret)
      (fun c hc => (urlAlphabet_lt c ((C02_rfc4648 secret).1 c hc)).1)
    have e1 := asciiEncode_utf8 (asciiEncode_decode ht1)
    have hu : asUnicode (b64e secret) = .str t := by rw [← e1.1, asUnicode_encode]
    simp only [Key.serialize, hm, symSerialize, hk, pyBytes, Bind.bind, Except.bind, Except.map, hu,
      Except.ok.injEq, PyVal.dict.injEq] at h1
    rw [← h1]
    exact (TextDict.common ht).set _ _

theorem export_all (E : Env) : ∀ (ks : Keys), (∀ k ∈ ks, Exportable E k) →
    ∃ ds : List PyDict, ∃ ks', (ks.mapM fun k => k.serializeDflt.bind b2sConv) = .ok (ds.map PyVal.dict) ∧
      (∀ d ∈ ds, TextDict d) ∧ (∀ old : Keys, Keys.loadDict.go E old (ds.map PyVal.dict) = (.ok (), old ++ ks')) ∧
      List.Forall₂ (Exported E) ks ks' := by
  intro ks
  induction ks with
  | nil =>
    intro _
    exact ⟨[], [], rfl, by simp, fun old => by simp [Keys.loadDict.go], .nil⟩
  | cons k ks ih =>
    intro h
    obtain ⟨ds, ks', h1, h2, h3, h4⟩ := ih fun k hk => h k (by simp [hk])
    obtain ⟨d, k', g1, g2, g3, g4⟩ := export_one E k (h k (by simp))
    refine ⟨d :: ds, k' :: ks', ?_, ?_, ?_, .cons g4 h4⟩
    · rw [List.mapM_cons, h1]
      simp [g1, b2sConv, b2sConvD_text g2.text, Except.map, Bind.bind, Except.bind, Pure.pure, Except.pure]
    · intro x hx
      rcases List.mem_cons.mp hx with rfl | hx
      · exact g2
      · exact h2 x hx
    · intro old
      simp only [List.map_cons, Keys.loadDict.go, g3, h3]
      simp

/-- `load_jwks(dump_jwks())`: every key comes back, in order, with its labels; of RSA and EC keys the
public half, of symmetric keys the secret itself. -/
theorem C84_jwks (E : Env) (ks old : Keys) (h : ∀ k ∈ ks, Exportable E k) :
    ∃ s ks', ks.dumpJwks = .ok s ∧ Keys.loadJwks E old s = (.ok (), old ++ ks') ∧
      List.Forall₂ (Exported E) ks ks' := by
  obtain ⟨ds, ks', h1, h2, h3, h4⟩ := export_all E ks h
  have hj : ∀ ds : List PyDict, (∀ d ∈ ds, TextDict d) → PyVal.jsonableL (ds.map PyVal.dict) = true := by
    intro ds
    induction ds with
    | nil => intro _; rfl
    | cons d ds ih =>
      intro h
      have := h d (by simp)
      simp [PyVal.jsonableL, PyVal.jsonable, this.nodup, jsonableD_text this.text,
        ih fun x hx => h x (by simp [hx])]
  obtain ⟨s, hs1, hs2⟩ := jsonLoads_dumps (.dict [("keys", .list (ds.map PyVal.dict))])
    (by simp [PyVal.jsonable, PyVal.jsonableD, hj ds h2])
  refine ⟨s, ks', ?_, ?_, h4⟩
  · simp only [Keys.dumpJwks, Bind.bind]
    rw [h1]
    exact hs1
  · simp only [Keys.loadJwks, hs2, Keys.loadDict]
    have : PyVal.getItem (.dict [("keys", .list (ds.map PyVal.dict))]) "keys" =
        .ok (.list (ds.map PyVal.dict)) := by simp [getItem_dict, get?_cons]
    rw [this]
    exact h3 old

example : ∃ s ks', Keys.dumpJwks [exRsa, exEc, exSym] = .ok s ∧
    Keys.loadJwks toyEnv [] s = (.ok (), ks') ∧ List.Forall₂ (Exported toyEnv) [exRsa, exEc, exSym] ks' :=
  C84_jwks toyEnv [exRsa, exEc, exSym] [] (by
    intro k hk
    simp only [List.mem_cons, List.not_mem_nil, or_false] at hk
    rcases hk with rfl | rfl | rfl
    · obtain ⟨m, hm, hN⟩ := exRsa_holds
      exact .rsa (r := ⟨3233, 17, none⟩) hm hN exRsa_text rfl rfl
    · exact .ec rfl (.number (by decide)) (.number (by decide)) (.number (n := 1) (by decide))
        (by decide +kernel) exEc_text
    · exact .sym rfl rfl (by decide) ⟨rfl, ⟨_, rfl⟩, ⟨_, rfl⟩, ⟨_, rfl⟩⟩)

end Verif
