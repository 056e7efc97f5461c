import Verif.Props.JwkHash
import Verif.Props.JwkLoad
import Verif.Props.JwkSet
import Verif.Model.JwkNew
/-
C94: which material an RSA (or EC) key object has when it is made from a library object, when another
library object is loaded into it, and when it is deserialized again.
-/

namespace Verif
open Spec

/-- The attributes of an RSA key that was given the library object `r` on top of the attributes `m₀`:
public numbers from the object, private numbers from the object if it has any and otherwise unchanged. -/
structure Spec.TakenFrom (r : RsaKey) (m₀ m : RsaMat) : Prop where
  n : m.n = .int r.n
  e : m.e = .int r.e
  ofPublic : r.priv = none → m.d = m₀.d ∧ m.p = m₀.p ∧ m.q = m₀.q
  ofPrivate : ∀ d p q, r.priv = some (d, p, q) → m.d = .int d ∧
    m.p = (if p = 0 then m₀.p else .int p) ∧ m.q = (if q = 0 then m₀.q else .int q)
  rest : m.dp = m₀.dp ∧ m.dq = m₀.dq ∧ m.di = m₀.di ∧ m.qi = m₀.qi

/-- Two key objects differ in nothing but the library object and the RSA attributes. -/
structure Spec.SameRest (a b : Key) : Prop where
  labels : SameLabels a b
  cert : a.x5c = b.x5c ∧ a.x5t = b.x5t ∧ a.x5u = b.x5u
  extra : a.extra = b.extra
  hash : a.hash = b.hash

theorem rsaSplit_taken (k : Key) (m₀ : RsaMat) (r : RsaKey) (h : k.key = .rsa r) :
    ∃ m, rsaSplit k m₀ = .ok { k with mat := .rsa m } ∧ TakenFrom r m₀ m := by
  cases hp : r.priv with
  | none =>
    refine ⟨{ m₀ with n := .int r.n, e := .int r.e }, by simp only [rsaSplit, h, hp],
      ⟨rfl, rfl, fun _ => ⟨rfl, rfl, rfl⟩, fun d p q h => by simp [hp] at h, rfl, rfl, rfl, rfl⟩⟩
  | some x =>
    obtain ⟨d, p, q⟩ := x
    refine ⟨{ m₀ with
        n := .int r.n, e := .int r.e, d := .int d
        p := if p ≠ 0 then .int p else m₀.p, q := if q ≠ 0 then .int q else m₀.q },
      by simp only [rsaSplit, h, hp],
      ⟨rfl, rfl, fun h => by simp [hp] at h, fun d' p' q' h => ?_, rfl, rfl, rfl, rfl⟩⟩
    simp only [hp, Option.some.injEq, Prod.mk.injEq] at h
    obtain ⟨rfl, rfl, rfl⟩ := h
    refine ⟨rfl, ?_, ?_⟩ <;> simp only [ne_eq, ite_not]

/-- The value of a keyword argument, `""` if it is missing. -/
def Spec.argText (kw : PyDict) (s : String) : PyVal := (PyDict.get? kw s).getD (.str "")

theorem keyCommon_x5c_len (kty : String) (known : List String) (kw : PyDict) (key : KObj) (mat : Mat)
    (h : (PyDict.get? kw "x5c").getD .none = .none ∨ ∃ l, (PyDict.get? kw "x5c").getD .none = .list l) :
    ∃ n, pyLen (keyCommon kty known kw key mat).x5c = .ok n := by
  have h' : kwGet kw "x5c" .none = .none ∨ ∃ l, kwGet kw "x5c" .none = .list l := h
  simp only [keyCommon]
  generalize kwGet kw "x5c" .none = v at h' ⊢
  rcases h' with rfl | ⟨l, rfl⟩
  · exact ⟨0, rfl⟩
  · split
    · exact ⟨_, rfl⟩
    · exact ⟨_, rfl⟩

/-- The constructor when a library object and texts for `n`, `e` are given. -/
theorem rsaKeyNew_obj (E : Env) (kw : PyDict) (r : RsaKey) (n e : String)
    (hself : PyDict.get? kw "self" = none) (hn : argText kw "n" = .str n) (he : argText kw "e" = .str e)
    (hx : (PyDict.get? kw "x5c").getD .none = .none ∨
      ∃ l, (PyDict.get? kw "x5c").getD .none = .list l) :
    rsaKeyNew E kw (.rsa r) =
      if ¬ (n ≠ "" ∧ e ≠ "") then
        rsaSplit (keyCommon "RSA" rsaArgs kw (.rsa r) (.rsa (rsaMat0 kw))) (rsaMat0 kw)
      else .ok (keyCommon "RSA" rsaArgs kw (.rsa r) (.rsa (rsaMat0 kw))) := by
  have hs : PyDict.has kw "self" = false := by simp [PyDict.has, hself]
  obtain ⟨lc, hlc⟩ := keyCommon_x5c_len "RSA" rsaArgs kw (.rsa r) (.rsa (rsaMat0 kw)) hx
  have hnn : (rsaMat0 kw).n = .str n := hn
  have hee : (rsaMat0 kw).e = .str e := he
  have tt : ∀ s : String, (PyVal.str s).truthy = true ↔ s ≠ "" := by
    intro s
    simp [PyVal.truthy]
  have main : (do
        let ln ← pyLen (rsaMat0 kw).n
        let pub ← (if ln > 0 then (pyLen (rsaMat0 kw).e).map (· != 0) else .ok false : PyM Bool)
        let lc ← pyLen (keyCommon "RSA" rsaArgs kw (.rsa r) (.rsa (rsaMat0 kw))).x5c
        if (KObj.rsa r).truthy = false ∧ (pub = true ∨ lc > 0) then
          rsaDeserialize E (keyCommon "RSA" rsaArgs kw (.rsa r) (.rsa (rsaMat0 kw))) (rsaMat0 kw)
        else if (KObj.rsa r).truthy ∧ ¬((rsaMat0 kw).n.truthy ∧ (rsaMat0 kw).e.truthy) then
          rsaSplit (keyCommon "RSA" rsaArgs kw (.rsa r) (.rsa (rsaMat0 kw))) (rsaMat0 kw)
        else .ok (keyCommon "RSA" rsaArgs kw (.rsa r) (.rsa (rsaMat0 kw))) : PyM Key) =
      if ¬ (n ≠ "" ∧ e ≠ "") then
        rsaSplit (keyCommon "RSA" rsaArgs kw (.rsa r) (.rsa (rsaMat0 kw))) (rsaMat0 kw)
      else .ok (keyCommon "RSA" rsaArgs kw (.rsa r) (.rsa (rsaMat0 kw))) := by
    have hpub : ∃ b, (if n.length > 0 then (pyLen (.str e)).map (· != 0) else .ok false : PyM Bool) =
        .ok b := by
      split
      · exact ⟨_, rfl⟩
      · exact ⟨_, rfl⟩
    obtain ⟨b, hb⟩ := hpub
    have h1 : pyLen (rsaMat0 kw).n = .ok n.length := by rw [hnn]; rfl
    rw [h1]
    simp only [Bind.bind, Except.bind]
    rw [hee, hb]
    simp only [hlc]
    rw [if_neg (by simp [KObj.truthy])]
    congr 1
    rw [hnn, tt, tt]
    simp [KObj.truthy]
  unfold rsaKeyNew
  rw [if_neg (by simp [hs])]
  exact main

theorem rsaKeyNew_rsa (E : Env) (kw : PyDict) (r : RsaKey) (n e : String)
    (hself : PyDict.get? kw "self" = none) (hn : argText kw "n" = .str n) (he : argText kw "e" = .str e)
    (hne : n = "" ∨ e = "")
    (hx : (PyDict.get? kw "x5c").getD .none = .none ∨
      ∃ l, (PyDict.get? kw "x5c").getD .none = .list l) :
    ∃ k m, rsaKeyNew E kw (.rsa r) = .ok k ∧ k.key = .rsa r ∧ k.mat = .rsa m ∧
      TakenFrom r (rsaMat0 kw) m ∧ SameRest k (keyCommon "RSA" rsaArgs kw (.rsa r) .plain) := by
  obtain ⟨m, hm, ht⟩ := rsaSplit_taken (keyCommon "RSA" rsaArgs kw (.rsa r) (.rsa (rsaMat0 kw)))
    (rsaMat0 kw) r rfl
  refine ⟨keyCommon "RSA" rsaArgs kw (.rsa r) (.rsa m), m, ?_, rfl, rfl, ht,
    ⟨⟨rfl, rfl, rfl, rfl⟩, ⟨rfl, rfl, rfl⟩, rfl, rfl⟩⟩
  rw [rsaKeyNew_obj E kw r n e hself hn he hx, if_pos (by tauto), hm]
  rfl

/-- An attribute made from an argument: bytes that are UTF-8 become text, other things stay. -/
def Spec.TextAttr (v w : PyVal) : Prop :=
  ((∀ b, v ≠ .bytes b) ∧ w = v) ∨ ∃ b, v = .bytes b ∧ AsText b w

/-- The labels of a key object are the keyword arguments, and the arguments with names of no meaning for
the class are kept as extra members. -/
structure Spec.LabelsFrom (kw : PyDict) (kty : String) (names : List String) (k : Key) : Prop where
  kty : TextAttr ((PyDict.get? kw "kty").getD (.str kty)) k.kty
  alg : TextAttr (argText kw "alg") k.alg
  use : TextAttr (argText kw "use") k.use
  kid : TextAttr (argText kw "kid") k.kid
  x5t : k.x5t = argText kw "x5t"
  x5u : k.x5u = argText kw "x5u"
  x5c : k.x5c = (PyDict.get? kw "x5c").getD .none ∨ k.x5c = .list []
  chain : ∀ l, PyDict.get? kw "x5c" = some (.list l) → k.x5c = .list l
  extra : ∀ n v, (n, v) ∈ k.extra ↔ (n, v) ∈ kw ∧ n ∉ names
  hash : k.hash = none

theorem textAttr_strAttr (v : PyVal) : TextAttr v (strAttr v) := by
  cases v
  case bytes b => exact .inr ⟨b, rfl, (asText_iff _ _).mpr rfl⟩
  all_goals exact .inl ⟨by simp, rfl⟩

theorem labelsFrom_keyCommon (kty : String) (names : List String) (kw : PyDict) (key : KObj) (mat : Mat) :
    LabelsFrom kw kty names (keyCommon kty names kw key mat) where
  kty := textAttr_strAttr _
  alg := textAttr_strAttr _
  use := textAttr_strAttr _
  kid := textAttr_strAttr _
  x5t := rfl
  x5u := rfl
  x5c := by
    simp only [keyCommon, kwGet]
    by_cases h : ((PyDict.get? kw "x5c").getD .none).truthy = true
    · exact .inl (if_pos h)
    · exact .inr (if_neg h)
  chain := by
    intro l hl
    simp only [keyCommon, kwGet, hl, Option.getD_some]
    cases l <;> simp [PyVal.truthy]
  extra := by
    intro n v
    simp [keyCommon, List.mem_filter]
  hash := rfl

/-- `RSAKey(key=r, ...)` without modulus or without exponent: the numbers are those of `r`, the labels are
the arguments. -/
theorem C94_instance (E : Env) (kw : PyDict) (r : RsaKey) (n e : String)
    (hself : PyDict.get? kw "self" = none) (hn : argText kw "n" = .str n) (he : argText kw "e" = .str e)
    (hne : n = "" ∨ e = "")
    (hx : (PyDict.get? kw "x5c").getD .none = .none ∨
      ∃ l, (PyDict.get? kw "x5c").getD .none = .list l) :
    ∃ k m, rsaKeyNew E kw (.rsa r) = .ok k ∧ k.key = .rsa r ∧ k.mat = .rsa m ∧
      TakenFrom r ⟨argText kw "n", argText kw "e", argText kw "d", argText kw "p", argText kw "q",
        argText kw "dp", argText kw "dq", argText kw "di", argText kw "qi"⟩ m ∧
      LabelsFrom kw "RSA" ["kty", "alg", "use", "kid", "key", "x5c", "x5t", "x5u", "n", "e", "d", "p", "q",
        "dp", "dq", "di", "qi"] k := by
  obtain ⟨k, m, h1, h2, h3, h4, h5⟩ := rsaKeyNew_rsa E kw r n e hself hn he hne hx
  have hl := labelsFrom_keyCommon "RSA" rsaArgs kw (.rsa r) .plain
  exact ⟨k, m, h1, h2, h3, h4, by
    constructor
    · rw [h5.labels.kty]; exact hl.kty
    · rw [h5.labels.alg]; exact hl.alg
    · rw [h5.labels.use]; exact hl.use
    · rw [h5.labels.kid]; exact hl.kid
    · rw [h5.cert.2.1]; exact hl.x5t
    · rw [h5.cert.2.2]; exact hl.x5u
    · rw [h5.cert.1]; exact hl.x5c
    · rw [h5.cert.1]; exact hl.chain
    · rw [h5.extra]; exact hl.extra
    · rw [h5.hash]; exact hl.hash⟩

/-- `RSAKey(key=r, n=..., e=...)` with non-empty texts: nobody compares them.  The key computes with
`r` while its attributes keep the texts, and it cannot be serialized. -/
theorem C94_both (E : Env) (kw : PyDict) (r : RsaKey) (n e : String)
    (hself : PyDict.get? kw "self" = none) (hn : argText kw "n" = .str n) (he : argText kw "e" = .str e)
    (hn0 : n ≠ "") (he0 : e ≠ "")
    (hx : (PyDict.get? kw "x5c").getD .none = .none ∨
      ∃ l, (PyDict.get? kw "x5c").getD .none = .list l) :
    ∃ k m, rsaKeyNew E kw (.rsa r) = .ok k ∧ k.mat = .rsa m ∧ m.n = .str n ∧ m.e = .str e ∧
      (∀ priv, k.getKey priv = .ok (.obj (.rsa r))) ∧
      (∀ alg priv, k.encryptionKey E alg priv = .ok (.obj (.rsa r))) ∧
      ∀ priv, k.serialize priv = .error .typeError := by
  have hnn : (rsaMat0 kw).n = .str n := hn
  have hee : (rsaMat0 kw).e = .str e := he
  have tn : (PyVal.str n).truthy = true := by simp [PyVal.truthy, hn0]
  refine ⟨keyCommon "RSA" rsaArgs kw (.rsa r) (.rsa (rsaMat0 kw)), rsaMat0 kw, ?_, rfl, hnn, hee,
    fun _ => rfl, fun _ _ => rfl, fun priv => ?_⟩
  · rw [rsaKeyNew_obj E kw r n e hself hn he hx, if_neg (by tauto)]
  · have h1 : serLong (keyCommon "RSA" rsaArgs kw (.rsa r) (.rsa (rsaMat0 kw))).common "n" (.str n) =
        .error .typeError := by
      simp [serLong, tn, longToBase64Val, PyVal.asInt?, Except.map]
    simp only [Key.serialize, keyCommon, rsaSerialize, hnn, KObj.truthy]
    simp only [keyCommon] at h1
    rw [if_neg (by simp)]
    simp only [h1, Bind.bind, Except.bind, Except.map]

/-- An integer (or `None`, or a boolean) as modulus is a `TypeError`, whatever else is given. -/
theorem C94_not_text (E : Env) (kw : PyDict) (key : KObj) (v : PyVal) (hn : argText kw "n" = v)
    (hv : v = .none ∨ (∃ b, v = .bool b) ∨ ∃ i, v = .int i) :
    rsaKeyNew E kw key = .error .typeError := by
  unfold rsaKeyNew
  split
  · rfl
  · have : kwGet kw "n" (.str "") = v := hn
    simp only [this]
    rcases hv with rfl | ⟨b, rfl⟩ | ⟨i, rfl⟩ <;> rfl

/-- `load_key(r)` on an existing RSA key: it now computes with `r`; the public numbers are replaced,
the private ones only if `r` has private numbers. -/
theorem C94_load (k : Key) (m₀ : RsaMat) (r : RsaKey) (hk : k.mat = .rsa m₀) :
    ∃ k' m, rsaLoadKey k (.rsa r) = (.ok (), k') ∧ k'.key = .rsa r ∧ k'.mat = .rsa m ∧
      TakenFrom r m₀ m ∧ SameRest k' k := by
  obtain ⟨m, hm, ht⟩ := rsaSplit_taken { k with key := .rsa r } m₀ r rfl
  exact ⟨{ k with key := .rsa r, mat := .rsa m }, m, by rw [hk] at hm; simp only [rsaLoadKey, hk, hm], rfl, rfl, ht,
    ⟨⟨rfl, rfl, rfl, rfl⟩, ⟨rfl, rfl, rfl⟩, rfl, rfl⟩⟩

/-- Loading a public key into a private one: the key can no longer sign, but its private
serialization mixes the new modulus with the old private numbers. -/
theorem C94_stale (E : Env) (k k' : Key) (m₀ : RsaMat) (N : RsaNums) (n e : Nat)
    (hk : k.mat = .rsa m₀) (hN : RsaHolds m₀ N) (hn : 0 < n) (he : 0 < e)
    (h : rsaLoadKey k (.rsa ⟨n, e, none⟩) = (.ok (), k')) :
    (∀ alg priv, k'.encryptionKey E alg priv = .ok (.obj (.rsa ⟨n, e, none⟩))) ∧
    ∃ m', k'.mat = .rsa m' ∧ RsaHolds m' { N with n := n, e := e } := by
  obtain ⟨k'', m, h1, h2, h3, h4, -⟩ := C94_load k m₀ ⟨n, e, none⟩ hk
  rw [h] at h1
  obtain rfl : k' = k'' := by simpa using h1
  obtain ⟨hd, hp, hq⟩ := h4.ofPublic rfl
  obtain ⟨a1, a2, a3, a4⟩ := h4.rest
  refine ⟨fun alg priv => by simp [Key.encryptionKey, h3, h2, KObj.truthy], m, h3, ?_⟩
  exact ⟨h4.n ▸ .number hn, h4.e ▸ .number he, hd ▸ hN.d, hp ▸ hN.p, hq ▸ hN.q, a1 ▸ hN.dp, a2 ▸ hN.dq,
    a3 ▸ hN.di, a4 ▸ hN.qi⟩

/-- `load_key` of an empty value: `SerializationNotPossible`, and the old library object is lost. -/
theorem C94_load_empty (k : Key) (v : PyVal) (hk : classOf k = .rsa) (hv : v.truthy = false) :
    rsaLoadKey k (.val v) = (.error .serializationNotPossible, { k with key := .val v }) := by
  cases hm : k.mat <;> simp [classOf, hm] at hk
  simp [rsaLoadKey, hm, rsaSplit, KObj.truthy, hv]

theorem rsaLong_again {v w : PyVal} (h : rsaLong v = .ok w) : rsaLong w = .ok w := by
  unfold rsaLong at h
  split at h
  · next hc =>
    simp only [Except.ok.injEq] at h
    subst h
    unfold rsaLong
    rw [if_pos hc]
  · cases hd : deser v with
    | error e => rw [hd] at h; simp [Except.map] at h
    | ok n =>
      rw [hd] at h
      have h : .int n = w := by simpa [Except.map, Bind.bind, Except.bind, pure, Except.pure] using h
      subst h
      unfold rsaLong
      rw [if_pos (by simp [isInt])]

/-- Deserializing an RSA key whose numbers are already integers (for instance a second time) changes
nothing, as long as modulus and exponent are not 0. -/
theorem C94_again (E : Env) (k k' : Key) (m m' : RsaMat) (hk : k.mat = .rsa m)
    (hn : m.n.truthy = true) (he : m.e.truthy = true) (h : k.deserialize E = .ok k')
    (hm : k'.mat = .rsa m') (hn' : m'.n.truthy = true) (he' : m'.e.truthy = true) :
    k'.deserialize E = .ok k' := by
  simp only [Key.deserialize, hk] at h
  unfold rsaDeserialize at h
  rw [if_pos (by simp [hn, he])] at h
  have h := valueErrorTo_ok h
  simp only [Bind.bind] at h
  obtain ⟨n, h1, h⟩ := bind_ok_iff.mp h
  obtain ⟨e, h2, h⟩ := bind_ok_iff.mp h
  obtain ⟨d, h3, h⟩ := bind_ok_iff.mp h
  obtain ⟨p, h4, h⟩ := bind_ok_iff.mp h
  obtain ⟨q, h5, h⟩ := bind_ok_iff.mp h
  obtain ⟨dp, h6, h⟩ := bind_ok_iff.mp h
  obtain ⟨dq, h7, h⟩ := bind_ok_iff.mp h
  obtain ⟨di, h8, h⟩ := bind_ok_iff.mp h
  obtain ⟨qi, h9, h⟩ := bind_ok_iff.mp h
  obtain ⟨lst, h10, h⟩ := bind_ok_iff.mp h
  obtain ⟨key, h11, h⟩ := bind_ok_iff.mp h
  simp only [Except.ok.injEq] at h
  subst h
  simp only [Mat.rsa.injEq] at hm
  subst hm
  simp only at hn' he'
  simp only [Key.deserialize]
  unfold rsaDeserialize
  rw [if_pos (by simp [hn', he'])]
  simp only [rsaLong_again h1, rsaLong_again h2, rsaLong_again h3, rsaLong_again h4, rsaLong_again h5,
    rsaLong_again h6, rsaLong_again h7, rsaLong_again h8, rsaLong_again h9, Bind.bind, Except.bind, h10,
    h11, valueErrorTo]

/-- `ECKey(key=curve)` without `crv`: a fresh pair on that curve, whatever coordinates are given. -/
theorem C94_ec (C : NistCurve) (hC : SoundCurve C) (kw : PyDict) (rnd : Nat) (k : Key)
    (hcrv : argText kw "crv" = .str "") (h : ecKeyNew kw (.curve C) (.val .none) rnd = .ok k) :
    ∃ (x y : Int) (d : Nat), k.mat = .ec (.str "") (.int x) (.int y) (.int d) (.curve C) ∧
      0 < d ∧ d < C.N ∧ C.publicKeyFor d = some (x, y) := by
  obtain ⟨h0, hN, hpub, x, y, hxy, -⟩ := NistCurve.C56_key_pair hC rnd
  unfold ecKeyNew at h
  split at h
  · simp at h
  · have hc : kwGet kw "crv" (.str "") = .str "" := hcrv
    simp only [hc, KObj.truthy, if_true, PyVal.truthy, ecLoadKey] at h
    generalize hkp : C.keyPair rnd = kp at h h0 hN hpub hxy
    obtain ⟨d, pt⟩ := kp
    simp only at h h0 hN hpub hxy
    subst hxy
    simp only [bne_self_eq_false, Bool.false_eq_true, false_and, if_false, and_self, if_true,
      Except.ok.injEq] at h
    exact ⟨x, y, d, by rw [← h], h0, hN, hpub.symm⟩

/-! Instances. -/

example : ∃ k m, rsaKeyNew toyEnv [("kid", .str "a"), ("d", .str "AQ")] (.rsa ⟨3233, 17, some (2753, 61, 0)⟩) =
    .ok k ∧ k.mat = .rsa m ∧ m.d = .int 2753 ∧ m.p = .int 61 ∧ m.q = .str "" := by
  obtain ⟨k, m, h, _, hm, ht, _⟩ := C94_instance toyEnv [("kid", .str "a"), ("d", .str "AQ")]
    ⟨3233, 17, some (2753, 61, 0)⟩ "" "" rfl rfl rfl (.inl rfl) (.inl rfl)
  obtain ⟨h1, h2, h3⟩ := ht.ofPrivate _ _ _ rfl
  exact ⟨k, m, h, hm, h1, h2, h3⟩

example : ∃ k m, rsaKeyNew toyEnv [("n", .str "AQAB"), ("e", .str "Aw")] (.rsa ⟨3233, 17, none⟩) = .ok k ∧
    k.mat = .rsa m ∧ m.n = .str "AQAB" ∧ k.getKey true = .ok (.obj (.rsa ⟨3233, 17, none⟩)) := by
  obtain ⟨k, m, h, hm, h1, _, h2, _⟩ := C94_both toyEnv [("n", .str "AQAB"), ("e", .str "Aw")]
    ⟨3233, 17, none⟩ "AQAB" "Aw" rfl rfl rfl (by decide) (by decide) (.inl rfl)
  exact ⟨k, m, h, hm, h1, h2 true⟩

example : rsaKeyNew toyEnv [("n", .int 3233), ("e", .int 17)] (.val .none) = .error .typeError :=
  C94_not_text _ _ _ _ rfl (.inr (.inr ⟨_, rfl⟩))

/-- The private key (3233, 17, 2753) after loading the public key (2773, 17). -/
example : ∃ k' m', rsaLoadKey { exRsa with mat := .rsa ⟨.int 3233, .int 17, .int 2753, .int 61, .int 53,
      .str "", .str "", .str "", .str ""⟩ } (.rsa ⟨2773, 17, none⟩) = (.ok (), k') ∧
    k'.mat = .rsa m' ∧ m'.n = .int 2773 ∧ m'.d = .int 2753 :=
  ⟨_, _, rfl, rfl, rfl, rfl⟩

example : ∃ k x y, ecKeyNew [("x", .str "AQ")] (.curve P256) (.val .none) 0 = .ok k ∧
    ∃ d : Nat, k.mat = .ec (.str "") (.int x) (.int y) (.int d) (.curve P256) ∧
      P256.publicKeyFor d = some (x, y) := by
  have h0 : (ecKeyNew [("x", .str "AQ")] (.curve P256) (.val .none) 0).toOption.isSome = true := by
    decide +kernel
  cases hk : ecKeyNew [("x", .str "AQ")] (.curve P256) (.val .none) 0 with
  | error e => rw [hk] at h0; simp [Except.toOption] at h0
  | ok k =>
    obtain ⟨x, y, d, hm, -, -, hp⟩ := C94_ec P256 C55_P256 _ 0 k rfl hk
    exact ⟨k, x, y, rfl, d, hm, hp⟩

example : ∃ k', Key.deserialize toyEnv { exRsa with mat := .rsa ⟨.str "DKE", .bytes [0x45, 0x51], .int 2753,
      .int 61, .int 53, .str "", .str "", .str "", .str ""⟩ } = .ok k' ∧ k'.deserialize toyEnv = .ok k' := by
  have h : Key.deserialize toyEnv { exRsa with mat := .rsa ⟨.str "DKE", .bytes [0x45, 0x51], .int 2753,
      .int 61, .int 53, .str "", .str "", .str "", .str ""⟩ } = .ok exRsa := by decide +kernel
  exact ⟨exRsa, h, C94_again toyEnv _ _ _ _ rfl (by decide) (by decide) h rfl (by decide) (by decide)⟩

end Verif
