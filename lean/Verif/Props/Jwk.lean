import Verif.Proofs.Jwk
import Verif.Proofs.JwsSign
/-
Properties C28–C34 and C68: JSON Web Keys (`/repo/src/jwkest/jwk.py`).
-/

namespace Verif
open Spec

/-! ### C28: serialization round trip -/

/-- What `d` says about the labels of `k`. -/
structure LabelsIn (d : PyDict) (k : Key) : Prop where
  kty : PyDict.get? d "kty" = some k.kty
  use : PyDict.get? d "use" = if k.use.truthy then some k.use else none
  kid : PyDict.get? d "kid" = if k.kid.truthy then some k.kid else none
  alg : PyDict.get? d "alg" = if k.alg.truthy then some k.alg else none

theorem labelsIn_of {d : PyDict} {k : Key}
    (h : ∀ s, s = "kty" ∨ s = "use" ∨ s = "kid" ∨ s = "alg" →
      PyDict.get? d s = PyDict.get? k.common s) : LabelsIn d k := by
  constructor <;> rw [h _ (by simp), get?_common] <;> simp

theorem kwGet_map (d : PyDict) (s : String) (dflt : PyVal) :
    kwGet (d.map fun kv => (kv.1, asBytes kv.2)) s dflt =
      ((PyDict.get? d s).map asBytes).getD dflt := by
  rw [kwGet, get?_map]

theorem labels_load {d : PyDict} {k : Key} {kty : String} (hl : LabelsIn d k) (ht : TextLabels k kty)
    (kty0 : String) (known : List String) (key : KObj) (mat : Mat) :
    let k' := keyCommon kty0 known (d.map fun kv => (kv.1, asBytes kv.2)) key mat
    SameLabels k' k := by
  intro k'
  constructor
  · simp only [k', keyCommon, kwGet_map, hl.kty, ht.kty]
    simp [asBytes, strAttr, asUnicode_encode]
  · simp only [k', keyCommon, kwGet_map, hl.alg]
    exact strAttr_text ht.alg
  · simp only [k', keyCommon, kwGet_map, hl.use]
    exact strAttr_text ht.use
  · simp only [k', keyCommon, kwGet_map, hl.kid]
    exact strAttr_text ht.kid

theorem loadVal_eq (o : Option Nat) :
    ((o.map fun n => PyVal.str (uintTxt n)).map asBytes).getD (.str "") = loadVal o := by
  cases o <;> rfl

theorem asInts_numVals (N : RsaNums) (hn : 0 < N.n) (he : 0 < N.e) (hd : Pos N.d) (hp : Pos N.p)
    (hq : Pos N.q) (dp dq di qi : PyVal) :
    asInts (rsaParts ⟨numVal (some N.n), numVal (some N.e), numVal N.d, numVal N.p, numVal N.q,
      dp, dq, di, qi⟩) = .ok N.tuple := by
  obtain ⟨n, e, d, p, q, dp', dq', di', qi'⟩ := N
  simp only at *
  simp only [rsaParts, numVal_truthy _ hd, numVal_truthy _ hp, numVal_truthy _ hq, RsaNums.tuple]
  cases d <;> cases p <;> cases q <;> simp [numVal, asInts, PyVal.asInt?, Except.map]

/-- A dictionary with the labels of `k` and the numbers `N`, loaded by `keyrep`. -/
theorem rsa_load (E : Env) (k : Key) (N : RsaNums) (d : PyDict) (r : RsaKey)
    (hl : LabelsIn d k) (ht : TextLabels k "RSA")
    (hself : PyDict.get? d "self" = none) (hkey : PyDict.get? d "key" = none)
    (hx5c : PyDict.get? d "x5c" = none)
    (gn : PyDict.get? d "n" = some (.str (uintTxt N.n)))
    (ge : PyDict.get? d "e" = some (.str (uintTxt N.e)))
    (gd : PyDict.get? d "d" = N.d.map fun n => .str (uintTxt n))
    (gp : PyDict.get? d "p" = N.p.map fun n => .str (uintTxt n))
    (gq : PyDict.get? d "q" = N.q.map fun n => .str (uintTxt n))
    (gdp : PyDict.get? d "dp" = N.dp.map fun n => .str (uintTxt n))
    (gdq : PyDict.get? d "dq" = N.dq.map fun n => .str (uintTxt n))
    (gdi : PyDict.get? d "di" = N.di.map fun n => .str (uintTxt n))
    (gqi : PyDict.get? d "qi" = N.qi.map fun n => .str (uintTxt n))
    (pn : 0 < N.n) (pe : 0 < N.e) (pd : Pos N.d) (pp : Pos N.p) (pq : Pos N.q) (pdp : Pos N.dp)
    (pdq : Pos N.dq) (pdi : Pos N.di) (pqi : Pos N.qi)
    (hr : E.R.construct N.tuple = .ok r) :
    ∃ k' m', keyrep E d = .ok k' ∧ SameLabels k' k ∧ k'.key = .rsa r ∧ k'.mat = .rsa m' ∧
      RsaHolds m' N := by
  have n1 : ∀ o, Pos o → Holds (numVal o) o := fun o => holds_numVal
  have t1 : ∀ n : Nat, 0 < n → (PyVal.bytes (utf8Encode (uintTxt n))).truthy = true := by
    intro n hn
    simpa [PyVal.truthy] using utf8Encode_ne (uintTxt_spec hn).1.ne_empty
  have l1 : ∀ n : Nat, 0 < n → 0 < (utf8Encode (uintTxt n)).length := by
    intro n hn
    exact List.length_pos_iff.mpr (utf8Encode_ne (uintTxt_spec hn).1.ne_empty)
  have pN : Pos (some N.n) := fun n h => by cases h; exact pn
  have pE : Pos (some N.e) := fun n h => by cases h; exact pe
  refine ⟨_, _, ?_, labels_load hl ht "RSA" rsaArgs (.rsa r) (.rsa ⟨numVal (some N.n),
    numVal (some N.e), numVal N.d, numVal N.p, numVal N.q, numVal N.dp, numVal N.dq, numVal N.di,
    numVal N.qi⟩), rfl, rfl, ⟨n1 _ pN, n1 _ pE, n1 _ pd, n1 _ pp, n1 _ pq, n1 _ pdp, n1 _ pdq,
    n1 _ pdi, n1 _ pqi⟩⟩
  simp only [keyrep, hl.kty, ht.kty]
  rw [if_pos (by rfl)]
  unfold rsaKeyNew
  rw [if_neg (by simp [PyDict.has, get?_map, hself])]
  have hc := asInts_numVals N pn pe pd pp pq (numVal N.dp) (numVal N.dq) (numVal N.di) (numVal N.qi)
  have kn := kwGet_map d "n" (.str "")
  have ke := kwGet_map d "e" (.str "")
  have kd := kwGet_map d "d" (.str "")
  have kp := kwGet_map d "p" (.str "")
  have kq := kwGet_map d "q" (.str "")
  have kdp := kwGet_map d "dp" (.str "")
  have kdq := kwGet_map d "dq" (.str "")
  have kdi := kwGet_map d "di" (.str "")
  have kqi := kwGet_map d "qi" (.str "")
  have kkey := kwGet_map d "key" .none
  have kx5c := kwGet_map d "x5c" .none
  rw [gn, Option.map_some, Option.getD_some] at kn
  rw [ge, Option.map_some, Option.getD_some] at ke
  rw [gd, loadVal_eq] at kd
  rw [gp, loadVal_eq] at kp
  rw [gq, loadVal_eq] at kq
  rw [gdp, loadVal_eq] at kdp
  rw [gdq, loadVal_eq] at kdq
  rw [gdi, loadVal_eq] at kdi
  rw [gqi, loadVal_eq] at kqi
  rw [hkey, Option.map_none, Option.getD_none] at kkey
  rw [hx5c, Option.map_none, Option.getD_none] at kx5c
  generalize (d.map fun kv => (kv.1, asBytes kv.2)) = kw at *
  have hle : ((utf8Encode (uintTxt N.e)).length != 0) = true := by
    have := l1 _ pe
    simp only [bne_iff_ne, ne_eq]; omega
  have hx : ∀ key mat, (keyCommon "RSA" rsaArgs kw key mat).x5c = .list [] := by
    intro key mat
    simp [keyCommon, kx5c, PyVal.truthy]
  simp only [kn, ke, kd, kp, kq, kdp, kdq, kdi, kqi, kkey, hx, asBytes, pyLen, Bind.bind,
    Except.bind, Except.map, gt_iff_lt, l1 _ pn, if_true, hle]
  rw [if_pos ⟨rfl, .inl trivial⟩]
  unfold rsaDeserialize
  have r1 := rsaLong_loadVal pN
  have r2 := rsaLong_loadVal pE
  simp only [loadVal] at r1 r2
  simp only [t1 _ pn, t1 _ pe, Bool.and_self, if_true, Bind.bind, Except.bind, r1, r2,
    rsaLong_loadVal pd, rsaLong_loadVal pp, rsaLong_loadVal pq, rsaLong_loadVal pdp,
    rsaLong_loadVal pdq, rsaLong_loadVal pdi, rsaLong_loadVal pqi, hc, hr, valueErrorTo]
  rfl

/-- Serializing an RSA key with its private parts and loading the dictionary gives the same numbers,
labels and a library key built from the same tuple. -/
theorem C28_rsa (E : Env) (k : Key) (m : RsaMat) (N : RsaNums) (hm : k.mat = .rsa m)
    (hN : RsaHolds m N) (ht : TextLabels k "RSA") (hk : k.key.truthy = true) (r : RsaKey)
    (hr : E.R.construct N.tuple = .ok r) :
    ∃ d k' m', k.serialize true = .ok (.dict d) ∧ keyrep E d = .ok k' ∧ SameLabels k' k ∧
      k'.key = .rsa r ∧ k'.mat = .rsa m' ∧ RsaHolds m' N := by
  have hser : k.serialize true = .ok (.dict (optSet (optSet (optSet (optSet (optSet (optSet (optSet
      (optSet (optSet (optSet (optSet k.common "n" (some N.n)) "e" (some N.e)) "n" (some N.n)) "e"
      (some N.e)) "d" N.d) "p" N.p) "q" N.q) "dp" N.dp) "dq" N.dq) "di" N.di) "qi" N.qi)) := by
    simp only [Key.serialize, hm, rsaSerialize, hk, Bool.true_eq_false, if_false, if_true,
      Bind.bind, Except.bind, serLong_holds hN.n, serLong_holds hN.e, serLong_holds hN.d,
      serLong_holds hN.p, serLong_holds hN.q, serLong_holds hN.dp, serLong_holds hN.dq,
      serLong_holds hN.di, serLong_holds hN.qi, Except.map]
  have H := rsa_load E k N (optSet (optSet (optSet (optSet (optSet (optSet (optSet
      (optSet (optSet (optSet (optSet k.common "n" (some N.n)) "e" (some N.e)) "n" (some N.n)) "e"
      (some N.e)) "d" N.d) "p" N.p) "q" N.q) "dp" N.dp) "dq" N.dq) "di" N.di) "qi" N.qi) r
    (labelsIn_of (by rintro s (rfl | rfl | rfl | rfl) <;> simp [get?_optSet])) ht
  simp only [get?_optSet, get?_common] at H
  obtain ⟨k', m', h⟩ := H (by simp) (by simp) (by simp) (by simp) (by simp) (by simp) (by simp)
    (by simp) (by simp) (by simp) (by simp) (by simp)
    (hN.n.pos _ rfl) (hN.e.pos _ rfl) hN.d.pos hN.p.pos hN.q.pos hN.dp.pos hN.dq.pos hN.di.pos
    hN.qi.pos hr
  exact ⟨_, k', m', hser, h⟩

/-- The public half: what `serialize()` gives loads as the public key. -/
theorem C28_rsa_public (E : Env) (k : Key) (m : RsaMat) (N : RsaNums) (hm : k.mat = .rsa m)
    (hN : RsaHolds m N) (ht : TextLabels k "RSA") (hk : k.key.truthy = true) (r : RsaKey)
    (hr : E.R.construct [(N.n : Int), (N.e : Int)] = .ok r) :
    ∃ d k' m', k.serialize false = .ok (.dict d) ∧ keyrep E d = .ok k' ∧ SameLabels k' k ∧
      k'.key = .rsa r ∧ k'.mat = .rsa m' ∧
      RsaHolds m' ⟨N.n, N.e, none, none, none, none, none, none, none⟩ := by
  have hser : k.serialize false = .ok (.dict (optSet (optSet k.common "n" (some N.n)) "e"
      (some N.e))) := by
    simp only [Key.serialize, hm, rsaSerialize, hk, Bool.true_eq_false, if_false,
      Bind.bind, Except.bind, serLong_holds hN.n, serLong_holds hN.e, Except.map,
      Bool.false_eq_true]
  have P0 : Pos none := fun n h => by cases h
  have H := rsa_load E k ⟨N.n, N.e, none, none, none, none, none, none, none⟩ (optSet (optSet k.common "n" (some N.n)) "e"
      (some N.e)) r
    (labelsIn_of (by rintro s (rfl | rfl | rfl | rfl) <;> simp [get?_optSet])) ht
  simp only [get?_optSet, get?_common] at H
  obtain ⟨k', m', h⟩ := H (by simp) (by simp) (by simp) (by simp) (by simp) (by simp) (by simp)
    (by simp) (by simp) (by simp) (by simp) (by simp)
    (hN.n.pos _ rfl) (hN.e.pos _ rfl) P0 P0 P0 P0 P0 P0 P0 hr
  exact ⟨_, k', m', hser, h⟩

/-- An RSA key with all private numbers, for the examples (n = 3233 = 61 · 53). -/
def exRsa : Key :=
  ⟨.str "RSA", .str "", .str "sig", .str "k1", .rsa ⟨3233, 17, some (2753, 61, 53)⟩, .list [],
    .str "", .str "", [], none,
    .rsa ⟨.int 3233, .int 17, .int 2753, .int 61, .int 53, .str "", .str "", .str "", .str ""⟩⟩

/-- Its numbers. -/
def exNums : RsaNums := ⟨3233, 17, some 2753, some 61, some 53, none, none, none, none⟩

theorem exRsa_holds : ∃ m, exRsa.mat = .rsa m ∧ RsaHolds m exNums :=
  ⟨_, rfl, .number (by decide), .number (by decide), .number (by decide), .number (by decide),
    .number (by decide), .absent rfl, .absent rfl, .absent rfl, .absent rfl⟩

theorem exRsa_text : TextLabels exRsa "RSA" := ⟨rfl, ⟨_, rfl⟩, ⟨_, rfl⟩, ⟨_, rfl⟩⟩

example : ∃ d k' m', exRsa.serialize true = .ok (.dict d) ∧ keyrep toyEnv d = .ok k' ∧
    SameLabels k' exRsa ∧ k'.key = .rsa ⟨3233, 17, some (2753, 61, 53)⟩ ∧ k'.mat = .rsa m' ∧
    RsaHolds m' exNums := by
  obtain ⟨m, hm, hN⟩ := exRsa_holds
  exact C28_rsa toyEnv exRsa m exNums hm hN exRsa_text rfl _ rfl

/-- A symmetric key: the secret, `use`, `kid` and `alg` come back. -/
theorem C28_sym (E : Env) (k : Key) (kk : PyVal) (secret : Bytes) (hm : k.mat = .sym kk)
    (hk : k.key = .val (.bytes secret)) (hne : secret ≠ []) (ht : TextLabels k "oct") (priv : Bool) :
    ∃ d k', k.serialize priv = .ok (.dict d) ∧ keyrep E d = .ok k' ∧ SameLabels k' k ∧
      k'.key = .val (.bytes secret) ∧ k'.mat = .sym (.bytes (b64e secret)) := by
  obtain ⟨t, ht1⟩ := asciiDecode_of_lt (b := b64e secret)
    (fun c hc => (urlAlphabet_lt c ((C02_rfc4648 secret).1 c hc)).1)
  have e1 := asciiEncode_utf8 (asciiEncode_decode ht1)
  have hu : asUnicode (b64e secret) = .str t := by rw [← e1.1, asUnicode_encode]
  have hser : k.serialize priv = .ok (.dict (PyDict.set k.common "k" (.str t))) := by
    simp only [Key.serialize, hm, symSerialize, hk, pyBytes, Bind.bind, Except.bind, Except.map, hu]
  have hl : LabelsIn (PyDict.set k.common "k" (.str t)) k := by
    apply labelsIn_of
    rintro s (rfl | rfl | rfl | rfl) <;> simp [PyDict.get?_set]
  refine ⟨_, _, hser, ?_, labels_load hl ht "oct" symArgs (.val (.bytes secret))
    (.sym (.bytes (b64e secret))), rfl, rfl⟩
  simp only [keyrep, hl.kty, ht.kty]
  rw [if_neg (by decide +kernel), if_pos (by rfl)]
  have kkey := kwGet_map (PyDict.set k.common "k" (.str t)) "key" .none
  have kk' := kwGet_map (PyDict.set k.common "k" (.str t)) "k" (.str "")
  rw [PyDict.get?_set, if_neg (by decide), get?_common] at kkey
  rw [PyDict.get?_set, if_pos rfl] at kk'
  rw [Option.map_some, Option.getD_some] at kk'
  unfold symKeyNew
  rw [if_neg (by simp [PyDict.has, get?_map, PyDict.get?_set, get?_common])]
  simp only [Option.map_none, Option.getD_none, String.reduceEq, if_false, false_and] at kkey
  generalize hkw : (PyDict.set k.common "k" (.str t)).map (fun kv => (kv.1, asBytes kv.2)) = kw at *
  have hb : b64e secret ≠ [] := by
    intro h0
    have := C01_roundtrip secret
    rw [h0, b64d_nil] at this
    exact hne (by simpa using this.symm)
  rw [kkey, kk']
  simp only [asBytes, e1.1, none_truthy, true_and, Bind.bind, Except.bind]
  rw [if_pos (by simpa [PyVal.truthy] using hb)]
  simp only [pyBytes, C01_roundtrip]
  rfl

/-- A symmetric key for the examples. -/
def exSym : Key :=
  ⟨.str "oct", .str "HS256", .str "", .str "s1", .val (.bytes [1, 2, 3]), .list [], .str "", .str "",
    [], none, .sym (.str "")⟩

example : ∃ d k', exSym.serialize true = .ok (.dict d) ∧ keyrep toyEnv d = .ok k' ∧
    SameLabels k' exSym ∧ k'.key = .val (.bytes [1, 2, 3]) ∧
    k'.mat = .sym (.bytes (b64e [1, 2, 3])) :=
  C28_sym toyEnv exSym _ _ rfl rfl (by decide) ⟨rfl, ⟨_, rfl⟩, ⟨_, rfl⟩, ⟨_, rfl⟩⟩ true

theorem txt_str_truthy {n : Nat} (h : 0 < n) : (PyVal.str (uintTxt n)).truthy = true := by
  simpa [PyVal.truthy] using (uintTxt_spec h).1.ne_empty

theorem ecCoord_txt {n : Nat} (h : 0 < n) : ecCoord (.str (uintTxt n)) = .ok (.int n) := by
  simp [ecCoord, isInt, deser, (uintTxt_spec h).2]

theorem ecCoord_txtB {n : Nat} (h : 0 < n) :
    ecCoord (.bytes (utf8Encode (uintTxt n))) = .ok (.int n) := by
  simp [ecCoord, isInt, deser, (uintTxt_spec h).2]

theorem curveByName_ne {s : String} {c : NistCurve} (h : curveByName s = .ok c) : s ≠ "" := by
  rintro rfl
  simp [curveByName] at h

theorem curveByName_b {s : String} {c : NistCurve} (h : curveByName s = .ok c) :
    curveByNameB (utf8Encode s) = .ok c := by
  have e : ∀ t : String, (∀ b ∈ utf8Encode t, b < 128) → ascii t = utf8Encode t → 
      (utf8Encode s = ascii t ↔ s = t) := by
    intro t _ h2
    rw [h2]
    exact ⟨utf8Encode_inj, fun h => by rw [h]⟩
  unfold curveByNameB
  unfold curveByName at h
  simp only [e "P-256" (by decide +kernel) (by decide +kernel),
    e "P-384" (by decide +kernel) (by decide +kernel),
    e "P-521" (by decide +kernel) (by decide +kernel)]
  exact h

/-- The dictionary an EC key serializes to. -/
def ecDict (k : Key) (c : NistCurve) (X Y : Nat) (D : Option Nat) : PyDict :=
  optSet (PyDict.set (PyDict.set (PyDict.set k.common "crv" (.str c.name)) "x" (.str (uintTxt X)))
    "y" (.str (uintTxt Y))) "d" D

theorem ec_serialize {k : Key} {crv x y d : PyVal} {c : NistCurve} {X Y : Nat} {D : Option Nat}
    (hm : k.mat = .ec crv x y d (.curve c)) (hx : Holds x (some X)) (hy : Holds y (some Y))
    (hd : Holds d D) (priv : Bool) :
    k.serialize priv = .ok (.dict (ecDict k c X Y (if priv then D else none))) := by
  cases hx with | number hx => cases hy with | number hy =>
  simp only [Key.serialize, hm, ecSerialize, KObj.truthy, Bool.true_eq_false, and_false, if_false,
    Bind.bind, Except.bind, longToBase64Val_pos hx, longToBase64Val_pos hy, ecDict]
  cases priv with
  | false => simp [optSet, Except.map]
  | true =>
    cases hd with
    | absent h => simp [h, optSet, Except.map]
    | number h => simp [int_truthy h, longToBase64Val_pos h, optSet, Except.map]

theorem strAttr_text' {v : PyVal} (h : ∃ s, v = .str s) :
    strAttr ((if v.truthy then some v else none).getD (.str "")) = v := by
  obtain ⟨s, rfl⟩ := h
  by_cases hs : s = ""
  · subst hs; rfl
  · have : (PyVal.str s).truthy = true := by simpa [PyVal.truthy] using hs
    simp [this, strAttr]

theorem labels_load' {d : PyDict} {k : Key} {kty : String} (hl : LabelsIn d k) (ht : TextLabels k kty)
    (kty0 : String) (known : List String) (key : KObj) (mat : Mat) :
    SameLabels (keyCommon kty0 known d key mat) k := by
  constructor
  · simp only [keyCommon, kwGet, hl.kty, ht.kty]
    simp [strAttr]
  · simp only [keyCommon, kwGet, hl.alg]
    exact strAttr_text' ht.alg
  · simp only [keyCommon, kwGet, hl.use]
    exact strAttr_text' ht.use
  · simp only [keyCommon, kwGet, hl.kid]
    exact strAttr_text' ht.kid

/-- An EC key with its private part: `ECKey(**key.serialize(private=True))` has the same point,
private number, curve and labels.  (Through `keyrep`, see `C34`.) -/
theorem C28_ec (k : Key) (crv x y d : PyVal) (c : NistCurve) (X Y : Nat) (D : Option Nat)
    (hm : k.mat = .ec crv x y d (.curve c)) (hx : Holds x (some X)) (hy : Holds y (some Y))
    (hd : Holds d D) (hc : curveByName c.name = .ok c) (ht : TextLabels k "EC") (rnd : Nat) :
    ∃ dict k' d', k.serialize true = .ok (.dict dict) ∧
      ecKeyNew dict (.val .none) (.val .none) rnd = .ok k' ∧ SameLabels k' k ∧
      k'.mat = .ec (.str c.name) (.int X) (.int Y) d' (.curve c) ∧ Holds d' D := by
  have px : 0 < X := hx.pos _ rfl
  have py : 0 < Y := hy.pos _ rfl
  have hl : LabelsIn (ecDict k c X Y D) k := labelsIn_of (by
    rintro s (rfl | rfl | rfl | rfl) <;> simp [ecDict, get?_optSet, PyDict.get?_set])
  refine ⟨_, _, numVal D, ec_serialize hm hx hy hd true, ?_, labels_load' hl ht "EC" ecArgs
    (.val .none) (.ec (.str c.name) (.int X) (.int Y) (numVal D) (.curve c)), rfl,
    holds_numVal hd.pos⟩
  simp only [if_true]
  have kx : kwGet (ecDict k c X Y D) "x" (.str "") = .str (uintTxt X) := by
    simp [kwGet, ecDict, get?_optSet, PyDict.get?_set]
  have ky : kwGet (ecDict k c X Y D) "y" (.str "") = .str (uintTxt Y) := by
    simp [kwGet, ecDict, get?_optSet, PyDict.get?_set]
  have kc : kwGet (ecDict k c X Y D) "crv" (.str "") = .str c.name := by
    simp [kwGet, ecDict, get?_optSet, PyDict.get?_set]
  have kd : kwGet (ecDict k c X Y D) "d" (.str "") =
      (D.map fun n => PyVal.str (uintTxt n)).getD (.str "") := by
    cases D <;> simp [kwGet, ecDict, get?_optSet, PyDict.get?_set, get?_common]
  have ks : PyDict.has (ecDict k c X Y D) "self" = false := by
    simp [PyDict.has, ecDict, get?_optSet, PyDict.get?_set, get?_common]
  have hn : (PyVal.str c.name).truthy = true := by
    simpa [PyVal.truthy] using curveByName_ne hc
  generalize ecDict k c X Y D = kw at *
  have hnone : (KObj.val PyVal.none).truthy = false := rfl
  unfold ecKeyNew
  simp only [ks, Bool.false_eq_true, if_false, kx, ky, kc, kd, hn, hnone, and_self, if_true,
    verifyLongs, txt_str_truthy px, isInt, listLong, Bool.true_eq_false, decide_false, Bool.or_self,
    Bind.bind, Except.bind, ecDeserialize, ecCoord_txt px, ecCoord_txt py, curveByVal, hc]
  cases D with
  | none => rfl
  | some n =>
    have pd : 0 < n := hd.pos _ rfl
    simp only [Option.map_some, Option.getD_some, txt_str_truthy pd, if_true, deser,
      (uintTxt_spec pd).2, Except.map, valueErrorTo]
    rfl

/-- Loading the same dictionary with `keyrep` (as `KEYS` does): point, curve and labels come back, but
the private part is the text of the member `d` as bytes, not the number. -/
theorem C28_ec_keyrep (E : Env) (k : Key) (crv x y d : PyVal) (c : NistCurve) (X Y : Nat)
    (D : Option Nat) (hm : k.mat = .ec crv x y d (.curve c)) (hx : Holds x (some X))
    (hy : Holds y (some Y)) (hd : Holds d D) (hc : curveByName c.name = .ok c)
    (ht : TextLabels k "EC") (priv : Bool) :
    ∃ dict k' d', k.serialize priv = .ok (.dict dict) ∧ keyrep E dict = .ok k' ∧ SameLabels k' k ∧
      k'.mat = .ec (.bytes (utf8Encode c.name)) (.int X) (.int Y) d' (.curve c) ∧
      (priv = false ∨ D = none → d' = .str "") ∧
      (∀ n, priv = true → D = some n → ∃ s, UIntText n s ∧ d' = .bytes (utf8Encode s)) := by
  have px : 0 < X := hx.pos _ rfl
  have py : 0 < Y := hy.pos _ rfl
  have hd' : Pos (if priv then D else none) := by
    cases priv
    · intro n hn; cases hn
    · exact hd.pos
  have hser := ec_serialize hm hx hy hd priv
  generalize hD' : (if priv then D else none) = D' at hser hd'
  have hl : LabelsIn (ecDict k c X Y D') k := labelsIn_of (by
    rintro s (rfl | rfl | rfl | rfl) <;> simp [ecDict, get?_optSet, PyDict.get?_set])
  refine ⟨_, _, loadVal D', hser, ?_, labels_load hl ht "EC" ecArgs
    (.val .none) (.ec (.bytes (utf8Encode c.name)) (.int X) (.int Y) (loadVal D') (.curve c)), rfl,
    ?_, ?_⟩
  · simp only [keyrep, hl.kty, ht.kty]
    rw [if_neg (by decide +kernel), if_neg (by decide +kernel), if_pos (by rfl)]
    have kx := kwGet_map (ecDict k c X Y D') "x" (.str "")
    have ky := kwGet_map (ecDict k c X Y D') "y" (.str "")
    have kc := kwGet_map (ecDict k c X Y D') "crv" (.str "")
    have kd := kwGet_map (ecDict k c X Y D') "d" (.str "")
    have kkey := kwGet_map (ecDict k c X Y D') "key" .none
    have kcur := kwGet_map (ecDict k c X Y D') "curve" .none
    have gx : PyDict.get? (ecDict k c X Y D') "x" = some (.str (uintTxt X)) := by
      simp [ecDict, get?_optSet, PyDict.get?_set]
    have gy : PyDict.get? (ecDict k c X Y D') "y" = some (.str (uintTxt Y)) := by
      simp [ecDict, get?_optSet, PyDict.get?_set]
    have gc : PyDict.get? (ecDict k c X Y D') "crv" = some (.str c.name) := by
      simp [ecDict, get?_optSet, PyDict.get?_set]
    have gd : PyDict.get? (ecDict k c X Y D') "d" = D'.map fun n => .str (uintTxt n) := by
      cases D' <;> simp [ecDict, get?_optSet, PyDict.get?_set, get?_common]
    have gkey : PyDict.get? (ecDict k c X Y D') "key" = none := by
      simp [ecDict, get?_optSet, PyDict.get?_set, get?_common]
    have gcur : PyDict.get? (ecDict k c X Y D') "curve" = none := by
      simp [ecDict, get?_optSet, PyDict.get?_set, get?_common]
    rw [gx, Option.map_some, Option.getD_some] at kx
    rw [gy, Option.map_some, Option.getD_some] at ky
    rw [gc, Option.map_some, Option.getD_some] at kc
    rw [gd, loadVal_eq] at kd
    rw [gkey, Option.map_none, Option.getD_none] at kkey
    rw [gcur, Option.map_none, Option.getD_none] at kcur
    have ks : PyDict.has ((ecDict k c X Y D').map fun kv => (kv.1, asBytes kv.2)) "self" = false := by
      simp [PyDict.has, get?_map, ecDict, get?_optSet, PyDict.get?_set, get?_common]
    generalize ((ecDict k c X Y D').map fun kv => (kv.1, asBytes kv.2)) = kw at *
    have hn : (PyVal.bytes (utf8Encode c.name)).truthy = true := by
      simpa [PyVal.truthy] using utf8Encode_ne (curveByName_ne hc)
    have hnone : (KObj.val PyVal.none).truthy = false := rfl
    have t1 : (PyVal.bytes (utf8Encode (uintTxt X))).truthy = true := by
      simpa [PyVal.truthy] using utf8Encode_ne (uintTxt_spec px).1.ne_empty
    unfold ecKeyNew
    simp only [ks, Bool.false_eq_true, if_false, kx, ky, kc, kd, kkey, kcur, asBytes, hn, hnone,
      and_self, if_true, verifyLongs, t1, isInt, listLong, Bool.true_eq_false, decide_false, Bool.or_self,
      Bind.bind, Except.bind, ecDeserialize, utf8Decode_encode, Except.map, ecCoord_txt px,
      ecCoord_txtB py, curveByVal, curveByName_b hc]
    cases D' with
    | none => rfl
    | some n =>
      have t2 : (PyVal.bytes (utf8Encode (uintTxt n))).truthy = true := by
        simpa [PyVal.truthy] using utf8Encode_ne (uintTxt_spec (hd' n rfl)).1.ne_empty
      simp only [loadVal, t2, if_true]
      rfl
  · rintro (rfl | rfl)
    · simp only [Bool.false_eq_true, if_false] at hD'
      subst hD'; rfl
    · cases priv <;> simp at hD' <;> subst hD' <;> rfl
  · rintro n rfl rfl
    simp only [if_true] at hD'
    subst hD'
    exact ⟨_, (uintTxt_spec (hd.pos n rfl)).1, rfl⟩

/-- An EC key for the examples: private number 1, public point the generator of P-256. -/
def exEc : Key :=
  ⟨.str "EC", .str "", .str "sig", .str "e1", .val .none, .list [], .str "", .str "", [], none,
    .ec (.str "P-256") (.int (P256.G.1.toNat : Nat)) (.int (P256.G.2.toNat : Nat)) (.int (1 : Nat))
      (.curve P256)⟩

theorem exEc_text : TextLabels exEc "EC" := ⟨rfl, ⟨_, rfl⟩, ⟨_, rfl⟩, ⟨_, rfl⟩⟩

example : ∃ dict k' d', exEc.serialize true = .ok (.dict dict) ∧
    ecKeyNew dict (.val .none) (.val .none) 0 = .ok k' ∧ SameLabels k' exEc ∧
    k'.mat = .ec (.str P256.name) (.int P256.G.1.toNat) (.int P256.G.2.toNat) d' (.curve P256) ∧
    Holds d' (some 1) :=
  C28_ec exEc _ _ _ _ P256 _ _ _ rfl (.number (by decide)) (.number (by decide))
    (.number (by decide)) (by decide +kernel) exEc_text 0

example : ∃ dict k' d', exEc.serialize true = .ok (.dict dict) ∧ keyrep toyEnv dict = .ok k' ∧
    SameLabels k' exEc ∧
    k'.mat = .ec (.bytes (utf8Encode P256.name)) (.int P256.G.1.toNat) (.int P256.G.2.toNat) d'
      (.curve P256) ∧
    (true = false ∨ some 1 = none → d' = .str "") ∧
    (∀ n, true = true → some 1 = some n → ∃ s, UIntText n s ∧ d' = .bytes (utf8Encode s)) :=
  C28_ec_keyrep toyEnv exEc _ _ _ _ P256 _ _ _ rfl (.number (by decide)) (.number (by decide))
    (.number (by decide)) (by decide +kernel) exEc_text true

/-! ### C34: private EC keys from dictionaries -/

/-- The member is an integer (a `bool` counts as one in Python), or a list of byte values that decode to a number. -/
def IntMember (d : PyDict) (s : String) : Prop :=
  (∃ i, PyDict.get? d s = some (.int i)) ∨ (∃ b, PyDict.get? d s = some (.bool b)) ∨
  ∃ l b n, PyDict.get? d s = some (.list l) ∧ List.Forall₂ (fun (v : PyVal) (c : UInt8) => v.asInt? = some (c.toNat : Int)) l b ∧
    base64ToLongBytes b = .ok n

theorem listBytes_iff : ∀ (l : List PyVal) (b : Bytes),
    listBytes l = .ok b ↔ List.Forall₂ (fun (v : PyVal) (c : UInt8) => v.asInt? = some (c.toNat : Int)) l b
  | [], b => by
    rw [listBytes, Except.ok.injEq, List.forall₂_nil_left_iff]
    exact eq_comm
  | v :: l, b => by
    have ih := listBytes_iff l
    rw [listBytes]
    constructor
    · intro h
      cases hv : v.asInt? with
      | none => rw [hv] at h; cases h
      | some i =>
        rw [hv] at h
        dsimp only at h
        split at h
        · rename_i hi
          cases hl : listBytes l with
          | error e => rw [hl] at h; cases h
          | ok r =>
            rw [hl] at h
            cases h
            refine .cons ?_ ((ih r).mp hl)
            rw [hv]
            have : i.toNat < 256 := by omega
            simp only [UInt8.toNat_ofNat', Nat.toUInt8, Option.some.injEq]
            omega
        · cases h
    · intro h
      cases h with
      | @cons _ c _ r h1 h2 =>
        rw [h1]
        have hc := c.toNat_lt
        dsimp only
        rw [if_pos ⟨by omega, by omega⟩, (ih r).mpr h2]
        simp [Except.map, Nat.toUInt8]

/-- Passes the first loop of `verify` unless empty. -/
def numeric (v : PyVal) : Bool := isInt v || listLong v

theorem numeric_iff (v : PyVal) : numeric v = true ↔ (∃ i, v = .int i) ∨ (∃ b, v = .bool b) ∨
    ∃ l b n, v = .list l ∧ List.Forall₂ (fun (v : PyVal) (c : UInt8) => v.asInt? = some (c.toNat : Int)) l b ∧ base64ToLongBytes b = .ok n := by
  unfold numeric
  cases v with
  | list l =>
    simp only [isInt, listLong, Bool.false_or, PyVal.list.injEq, reduceCtorEq, exists_false, false_or]
    constructor
    · intro h
      cases hd : deser (.list l) with
      | error e => rw [hd] at h; cases h
      | ok n =>
        simp only [deser, pyBytes] at hd
        obtain ⟨b, h1, h2⟩ := bind_ok_iff.mp hd
        exact ⟨l, b, n, rfl, (listBytes_iff l b).mp h1, h2⟩
    · rintro ⟨_, b, n, rfl, h1, h2⟩
      have : deser (.list l) = .ok n := by
        simp only [deser, pyBytes]
        exact bind_ok_iff.mpr ⟨b, (listBytes_iff l b).mpr h1, h2⟩
      rw [this]
  | _ => simp [isInt, listLong]

theorem numeric_asBytes (v : PyVal) : numeric (asBytes v) = numeric v := by cases v <;> rfl

theorem intMember_iff (d : PyDict) (s : String) :
    IntMember d s ↔ numeric (kwGet (d.map fun kv => (kv.1, asBytes kv.2)) s (.str "")) = true := by
  rw [kwGet_map]
  unfold IntMember
  cases h : PyDict.get? d s with
  | none => simp [numeric, isInt, listLong]
  | some v =>
    simp only [Option.map_some, Option.getD_some, numeric_asBytes, numeric_iff, Option.some.injEq]

theorem ecCoord_falsy {v v' : PyVal} (h : ecCoord v = .ok v') (hv : v.truthy = false) :
    numeric v = true := by
  unfold ecCoord at h
  split at h
  · simp [numeric, *]
  · rename_i hi
    exfalso
    have key : ∃ e, deser v = .error e := by
      cases v with
      | none => exact ⟨_, rfl⟩
      | bool b => exact absurd rfl hi
      | int i => exact absurd rfl hi
      | float t => exact ⟨_, rfl⟩
      | str s =>
        have : s = "" := by simpa [PyVal.truthy] using hv
        subst this
        exact ⟨.valueError, by decide +kernel⟩
      | bytes b =>
        have : b = [] := by simpa [PyVal.truthy] using hv
        subst this
        exact ⟨.valueError, by decide +kernel⟩
      | list l =>
        have : l = [] := by simpa [PyVal.truthy] using hv
        subst this
        exact ⟨.valueError, by decide +kernel⟩
      | dict d =>
        have : d = [] := by simpa [PyVal.truthy] using hv
        subst this
        exact ⟨.valueError, by decide +kernel⟩
    obtain ⟨e, he⟩ := key
    rw [he] at h
    simp only at h
    split at h <;> simp at h

/-- `keyrep` of an EC dictionary with a curve name and a text member `d`: if it returns, the private
part is the decoded number exactly when both coordinates were given as integers (or as lists of byte values); with textual
coordinates (every JWK of RFC 7518) it stays the undecoded text, as bytes. -/
theorem C34_exact (E : Env) (spec : PyDict) (k : Key) (crv ds : String)
    (hkty : PyDict.get? spec "kty" = some (.str "EC"))
    (hcrv : PyDict.get? spec "crv" = some (.str crv)) (hcrv0 : crv ≠ "")
    (hcur : PyDict.get? spec "curve" = none)
    (hd : PyDict.get? spec "d" = some (.str ds)) (hds : ds ≠ "")
    (h : keyrep E spec = .ok k) :
    ∃ cv x y d c, k.mat = .ec cv x y d c ∧
      (IntMember spec "x" ∧ IntMember spec "y" → ∃ n, base64ToLongBytes (utf8Encode ds) = .ok n ∧ d = .int n) ∧
      (¬ (IntMember spec "x" ∧ IntMember spec "y") → d = .bytes (utf8Encode ds)) := by
  simp only [keyrep, hkty] at h
  rw [if_neg (by decide +kernel), if_neg (by decide +kernel), if_pos (by rfl)] at h
  have kc := kwGet_map spec "crv" (.str "")
  have kd := kwGet_map spec "d" (.str "")
  have kcur := kwGet_map spec "curve" .none
  rw [hcrv, Option.map_some, Option.getD_some] at kc
  rw [hd, Option.map_some, Option.getD_some] at kd
  rw [hcur, Option.map_none, Option.getD_none] at kcur
  rw [intMember_iff, intMember_iff]
  generalize (spec.map fun kv => (kv.1, asBytes kv.2)) = kw at *
  unfold ecKeyNew at h
  split at h
  · simp at h
  have hn : (PyVal.bytes (utf8Encode crv)).truthy = true := by
    simpa [PyVal.truthy] using utf8Encode_ne hcrv0
  have hdt : (PyVal.bytes (utf8Encode ds)).truthy = true := by
    simpa [PyVal.truthy] using utf8Encode_ne hds
  have hnone : (KObj.val PyVal.none).truthy = false := rfl
  simp only [kc, kd, kcur, asBytes, hn, hnone, and_self, if_true] at h
  generalize kwGet kw "x" (.str "") = xv at *
  generalize kwGet kw "y" (.str "") = yv at *
  obtain ⟨⟨vs, ok⟩, hv, h1⟩ := bind_ok_iff.mp h
  clear h
  simp only at h1
  have h2 : ∀ x y d, vs = [x, y, d] → ecDeserialize (keyCommon "EC" ecArgs kw
      (.val (kwGet kw "key" .none))
      (.ec (.bytes (utf8Encode crv)) xv yv (.bytes (utf8Encode ds)) (.val .none)))
      (.bytes (utf8Encode crv)) x y d = .ok k := by
    rintro x y d rfl
    split at h1
    · obtain ⟨u, -, h2⟩ := bind_ok_iff.mp h1
      exact h2
    · exact h1
  clear h1
  -- what the deserializer did with the three values
  have fin : ∀ x y d, ecDeserialize (keyCommon "EC" ecArgs kw (.val (kwGet kw "key" .none))
      (.ec (.bytes (utf8Encode crv)) xv yv (.bytes (utf8Encode ds)) (.val .none)))
      (.bytes (utf8Encode crv)) x y d = .ok k →
      (∃ x', ecCoord x = .ok x') ∧ (∃ y', ecCoord y = .ok y') ∧
      ∃ cv x y d' c, k.mat = .ec cv x y d' c ∧
        ((∃ s, d = .str s ∧ s ≠ "" ∧ ∃ n, base64ToLongBytes (utf8Encode s) = .ok n ∧ d' = .int n) ∨
         (d = .str "" ∧ d' = d) ∨ ((¬ ∃ s, d = .str s) ∧ d' = d)) := by
    intro x y d hde
    unfold ecDeserialize at hde
    obtain ⟨x', hx', g1⟩ := bind_ok_iff.mp hde
    obtain ⟨y', hy', g2⟩ := bind_ok_iff.mp g1
    obtain ⟨c, hc, g3⟩ := bind_ok_iff.mp g2
    obtain ⟨d', hd', g4⟩ := bind_ok_iff.mp g3
    simp only [Except.ok.injEq] at g4
    refine ⟨⟨_, hx'⟩, ⟨_, hy'⟩, _, x', y', d', _, by rw [← g4], ?_⟩
    cases d with
    | str s =>
      by_cases hs : s = ""
      · subst hs
        simp only [empty_truthy, Bool.false_eq_true, if_false, Except.ok.injEq] at hd'
        exact .inr (.inl ⟨rfl, hd'.symm⟩)
      · have : (PyVal.str s).truthy = true := by simpa [PyVal.truthy] using hs
        simp only [this, if_true, deser] at hd'
        refine .inl ⟨s, rfl, hs, ?_⟩
        cases hb : base64ToLongBytes (utf8Encode s) with
        | error e =>
          rw [hb] at hd'
          simp only [Except.map, valueErrorTo] at hd'
          split at hd' <;> simp at hd'
        | ok n =>
          rw [hb] at hd'
          simp only [Except.map, valueErrorTo, Except.ok.injEq] at hd'
          exact ⟨n, rfl, hd'.symm⟩
    | none =>
      simp only [none_truthy, Bool.false_eq_true, if_false, Except.ok.injEq] at hd'
      exact .inr (.inr ⟨by simp, hd'.symm⟩)
    | bool b => refine .inr (.inr ⟨by simp, ?_⟩); split at hd' <;> simp_all
    | int b => refine .inr (.inr ⟨by simp, ?_⟩); split at hd' <;> simp_all
    | float b => refine .inr (.inr ⟨by simp, ?_⟩); split at hd' <;> simp_all
    | bytes b => refine .inr (.inr ⟨by simp, ?_⟩); split at hd' <;> simp_all
    | list b => refine .inr (.inr ⟨by simp, ?_⟩); split at hd' <;> simp_all
    | dict b => refine .inr (.inr ⟨by simp, ?_⟩); split at hd' <;> simp_all
  have nonstr : ∀ vx vy, vs = [vx, vy, .bytes (utf8Encode ds)] →
      ¬ (numeric xv = true ∧ numeric yv = true) →
      ∃ cv x y d c, k.mat = .ec cv x y d c ∧
      (numeric xv = true ∧ numeric yv = true → ∃ n, base64ToLongBytes (utf8Encode ds) = .ok n ∧ d = .int n) ∧
      (¬ (numeric xv = true ∧ numeric yv = true) → d = .bytes (utf8Encode ds)) := by
    intro vx vy hvs hni
    obtain ⟨-, -, cv, x, y, d', c, hk, hd'⟩ := fin _ _ _ (h2 _ _ _ hvs)
    refine ⟨cv, x, y, d', c, hk, fun h => absurd h hni, fun _ => ?_⟩
    rcases hd' with ⟨s, hs, -⟩ | ⟨hs, -⟩ | ⟨-, hs⟩
    · cases hs
    · cases hs
    · exact hs
  -- the loop over the three values
  by_cases hx : xv.truthy = false ∨ numeric xv = true
  · have hx' : (decide (xv.truthy = false) || isInt xv || listLong xv) = true := by rw [Bool.or_assoc]; simpa [numeric] using hx
    by_cases hy : yv.truthy = false ∨ numeric yv = true
    · have hy' : (decide (yv.truthy = false) || isInt yv || listLong yv) = true := by rw [Bool.or_assoc]; simpa [numeric] using hy
      have hib : isInt (.bytes (utf8Encode ds)) = false := rfl
      have hil : listLong (.bytes (utf8Encode ds)) = false := rfl
      simp only [verifyLongs, hx', hy', if_true, hdt, hib, hil, Bool.true_eq_false, decide_false,
        Bool.or_self, Bool.false_eq_true, if_false, utf8Decode_encode, Except.map,
        Except.ok.injEq, Prod.mk.injEq] at hv
      obtain ⟨rfl, rfl⟩ := hv
      obtain ⟨⟨x', ex⟩, ⟨y', ey⟩, cv, x, y, d', c, hk, hd'⟩ := fin _ _ _ (h2 _ _ _ rfl)
      have ix : numeric xv = true := hx.elim (ecCoord_falsy ex) id
      have iy : numeric yv = true := hy.elim (ecCoord_falsy ey) id
      refine ⟨cv, x, y, d', c, hk, fun _ => ?_, fun h => absurd ⟨ix, iy⟩ h⟩
      rcases hd' with ⟨s, hs, -, n, hn', hd'⟩ | ⟨hs, -⟩ | ⟨hs, -⟩
      · cases hs
        exact ⟨n, hn', hd'⟩
      · cases hs; exact absurd rfl hds
      · exact absurd ⟨_, rfl⟩ hs
    · have hy' : (decide (yv.truthy = false) || isInt yv || listLong yv) = false := by rw [Bool.or_assoc]; simpa [numeric] using hy
      have hni : ¬ (numeric xv = true ∧ numeric yv = true) := fun h => hy (.inr h.2)
      simp only [verifyLongs, hx', hy', if_true, Bool.false_eq_true, if_false] at hv
      cases yv with
      | bytes b =>
        simp only at hv
        cases hu : utf8Decode b with
        | error e => simp [hu, Except.map] at hv
        | ok s =>
          simp only [hu, Except.map, Except.ok.injEq, Prod.mk.injEq] at hv
          exact nonstr _ _ hv.1.symm hni
      | _ =>
        simp only [Except.map, Except.ok.injEq, Prod.mk.injEq] at hv
        exact nonstr _ _ hv.1.symm hni
  · have hx' : (decide (xv.truthy = false) || isInt xv || listLong xv) = false := by rw [Bool.or_assoc]; simpa [numeric] using hx
    have hni : ¬ (numeric xv = true ∧ numeric yv = true) := fun h => hx (.inr h.1)
    simp only [verifyLongs, hx', Bool.false_eq_true, if_false] at hv
    cases xv with
    | bytes b =>
      simp only at hv
      cases hu : utf8Decode b with
      | error e => simp [hu, Except.map] at hv
      | ok s =>
        simp only [hu, Except.map, Except.ok.injEq, Prod.mk.injEq] at hv
        exact nonstr _ _ hv.1.symm hni
    | _ =>
      simp only [Except.ok.injEq, Prod.mk.injEq] at hv
      exact nonstr _ _ hv.1.symm hni

/-- So a private EC key loaded from an RFC 7518 dictionary cannot sign: every ECDSA signer raises
`OverflowError` with it. -/
theorem C34_sign (E : Env) (spec : PyDict) (k : Key) (crv ds xs ys : String)
    (hkty : PyDict.get? spec "kty" = some (.str "EC"))
    (hcrv : PyDict.get? spec "crv" = some (.str crv)) (hcrv0 : crv ≠ "")
    (hcur : PyDict.get? spec "curve" = none)
    (hx : PyDict.get? spec "x" = some (.str xs)) (_hy : PyDict.get? spec "y" = some (.str ys))
    (hd : PyDict.get? spec "d" = some (.str ds)) (hds : ds ≠ "")
    (h : keyrep E spec = .ok k) (hash : HashAlg) (rnd : Nat) (msg : Bytes) :
    ∃ ka, k.getKey true = .ok ka ∧ SigAlg.sign E (.es hash) rnd msg ka = .error .overflowError := by
  obtain ⟨cv, x, y, d, c, hk, -, hd'⟩ := C34_exact E spec k crv ds hkty hcrv hcrv0 hcur hd hds h
  have hni : ¬ (IntMember spec "x" ∧ IntMember spec "y") := by
    rintro ⟨⟨i, hi⟩ | ⟨b, hb⟩ | ⟨l, b, n, hl, -⟩, -⟩
    · rw [hx] at hi; simp at hi
    · rw [hx] at hb; simp at hb
    · rw [hx] at hl; simp at hl
  have hb := hd' hni
  subst hb
  have hdt : (PyVal.bytes (utf8Encode ds)).truthy = true := by
    simpa [PyVal.truthy] using utf8Encode_ne hds
  refine ⟨.obj (.val (.bytes (utf8Encode ds))), by simp [Key.getKey, hk, hdt], ?_⟩
  have hcv : ∃ C, esCurve hash = .ok C := by
    cases hash <;> exact ⟨_, rfl⟩
  obtain ⟨C, hC⟩ := hcv
  simp [SigAlg.sign, hC, esPriv, PyVal.asInt?, Bind.bind, Except.bind]

example : ∃ k, keyrep toyEnv [("kty", .str "EC"), ("crv", .str "P-256"), ("x", .str "AQ"),
    ("y", .str "Ag"), ("d", .str "Aw")] = .ok k ∧
    ∃ ka, k.getKey true = .ok ka ∧ SigAlg.sign toyEnv (.es .sha256) 7 [1] ka = .error .overflowError := by
  have h : ∃ k, keyrep toyEnv [("kty", .str "EC"), ("crv", .str "P-256"), ("x", .str "AQ"),
      ("y", .str "Ag"), ("d", .str "Aw")] = .ok k := by
    exact ⟨_, rfl⟩
  obtain ⟨k, hk⟩ := h
  exact ⟨k, hk, C34_sign toyEnv _ k "P-256" "Aw" "AQ" "Ag" rfl rfl (by decide) rfl rfl rfl rfl
    (by decide) hk .sha256 7 [1]⟩

/-- With integer coordinates it is decoded. -/
example : ∃ k, keyrep toyEnv [("kty", .str "EC"), ("crv", .str "P-256"), ("x", .int 1),
    ("y", .int 2), ("d", .str "Aw")] = .ok k ∧ k.getKey true = .ok (.obj (.val (.int 3))) := by
  refine ⟨_, rfl, ?_⟩
  decide +kernel

end Verif
