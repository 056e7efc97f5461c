import Verif.Props.JwkNew
/-
C140: the members of RSA JWKs (RFC 7518, section 6.3).
-/

namespace Verif
open Spec

/-- The member `s` is the `Base64urlUInt` of the number, or absent. -/
def Spec.MemberIs (d : PyDict) (s : String) : Option Nat → Prop
  | none => PyDict.get? d s = none
  | some n => ∃ t, PyDict.get? d s = some (.str t) ∧ UIntText n t

/-- The members of RFC 7518, section 6.3, with the numbers `N` (`di` is not one of them). -/
structure Spec.RsaMembers (D : PyDict) (N : RsaNums) : Prop where
  kty : PyDict.get? D "kty" = some (.str "RSA")
  n : MemberIs D "n" (some N.n)
  e : MemberIs D "e" (some N.e)
  d : MemberIs D "d" N.d
  p : MemberIs D "p" N.p
  q : MemberIs D "q" N.q
  dp : MemberIs D "dp" N.dp
  dq : MemberIs D "dq" N.dq
  qi : MemberIs D "qi" N.qi

/-- RFC 7518, section 6.3.2: a private key has `d`; "if the producer includes any of the other private key parameters,
then all of the others MUST be present". -/
def Spec.RfcShape (N : RsaNums) : Prop :=
  (N.p = none ∧ N.q = none ∧ N.dp = none ∧ N.dq = none ∧ N.qi = none) ∨
  (N.d ≠ none ∧ N.p ≠ none ∧ N.q ≠ none ∧ N.dp ≠ none ∧ N.dq ≠ none ∧ N.qi ≠ none)

/-- A JWK of an RSA key by RFC 7518. -/
def Spec.RfcRsaJwk (d : PyDict) : Prop := ∃ N, RsaMembers d N ∧ RfcShape N

theorem memberIs_txt {d : PyDict} {s : String} {o : Option Nat} (hp : Pos o) :
    MemberIs d s o ↔ PyDict.get? d s = o.map fun n => .str (uintTxt n) := by
  cases o with
  | none => rfl
  | some n =>
    have hu := (uintTxt_spec (hp n rfl)).1
    constructor
    · rintro ⟨t, h, ht⟩
      rw [h, ht.unique hu]
      rfl
    · intro h
      exact ⟨_, h, hu⟩

theorem memberIs_inj {d : PyDict} {s : String} {o o' : Option Nat} (h : MemberIs d s o) (h' : MemberIs d s o') : o = o' := by
  cases o with
  | none =>
    cases o' with
    | none => rfl
    | some n =>
      obtain ⟨t, e, -⟩ := h'
      have h0 : PyDict.get? d s = none := h
      rw [h0] at e
      cases e
  | some m =>
    obtain ⟨t, e, ht⟩ := h
    cases o' with
    | none =>
      have h0 : PyDict.get? d s = none := h'
      rw [h0] at e
      cases e
    | some n =>
      obtain ⟨t', e', ht'⟩ := h'
      rw [e] at e'
      cases e'
      rw [ht.inj ht']

/-- The numbers in a JWK are determined. -/
theorem rfcRsa_iff {d : PyDict} {N : RsaNums} (h : RsaMembers d N) : RfcRsaJwk d ↔ RfcShape N := by
  constructor
  · rintro ⟨M, hM, hs⟩
    unfold RfcShape at hs ⊢
    rw [memberIs_inj h.d hM.d, memberIs_inj h.p hM.p, memberIs_inj h.q hM.q, memberIs_inj h.dp hM.dp,
      memberIs_inj h.dq hM.dq, memberIs_inj h.qi hM.qi]
    exact hs
  · exact fun hs => ⟨N, h, hs⟩

/-- The public half of the numbers. -/
def Spec.RsaNums.public (N : RsaNums) : RsaNums := ⟨N.n, N.e, none, none, none, none, none, none, none⟩

/-- What is written: the numbers, each in the form of the RFC. -/
theorem rsa_written (k : Key) (m : RsaMat) (N : RsaNums) (hm : k.mat = .rsa m) (hN : RsaHolds m N)
    (hkty : k.kty = .str "RSA") (hk : k.key.truthy = true) (priv : Bool) :
    ∃ dict, k.serialize priv = .ok (.dict dict) ∧ RsaMembers dict (if priv then N else N.public) := by
  have pn : Pos (some N.n) := hN.n.pos
  have pe : Pos (some N.e) := hN.e.pos
  have p0 : Pos none := fun n h => by cases h
  cases priv with
  | true =>
    refine ⟨_, by
      simp only [Key.serialize, hm, rsaSerialize, hk, Bool.true_eq_false, if_false, if_true,
        Bind.bind, Except.bind, serLong_holds hN.n, serLong_holds hN.e, serLong_holds hN.d,
        serLong_holds hN.p, serLong_holds hN.q, serLong_holds hN.dp, serLong_holds hN.dq,
        serLong_holds hN.di, serLong_holds hN.qi, Except.map]
      rfl, ?_⟩
    simp only [if_true]
    obtain ⟨n, e, d, p, q, dp, dq, di, qi⟩ := N
    have q1 := hN.d.pos
    have q2 := hN.p.pos
    have q3 := hN.q.pos
    have q4 := hN.dp.pos
    have q5 := hN.dq.pos
    have q6 := hN.qi.pos
    constructor
    · simp [get?_optSet, get?_common, hkty]
    · rw [memberIs_txt pn]; simp [get?_optSet]
    · rw [memberIs_txt pe]; simp [get?_optSet]
    · rw [memberIs_txt q1]; cases d <;> simp [get?_optSet, get?_common]
    · rw [memberIs_txt q2]; cases p <;> simp [get?_optSet, get?_common]
    · rw [memberIs_txt q3]; cases q <;> simp [get?_optSet, get?_common]
    · rw [memberIs_txt q4]; cases dp <;> simp [get?_optSet, get?_common]
    · rw [memberIs_txt q5]; cases dq <;> simp [get?_optSet, get?_common]
    · rw [memberIs_txt q6]; cases qi <;> simp [get?_optSet, get?_common]
  | false =>
    refine ⟨_, by
      simp only [Key.serialize, hm, rsaSerialize, hk, Bool.true_eq_false, if_false,
        Bind.bind, Except.bind, serLong_holds hN.n, serLong_holds hN.e, Except.map,
        Bool.false_eq_true]
      rfl, ?_⟩
    simp only [Bool.false_eq_true, if_false, RsaNums.public]
    constructor
    · simp [get?_optSet, get?_common, hkty]
    · rw [memberIs_txt pn]; simp [get?_optSet]
    · rw [memberIs_txt pe]; simp [get?_optSet]
    all_goals rw [memberIs_txt p0]; simp [get?_optSet, get?_common]

/-- **C140 (out).** The JWK of an RSA key has the numbers of the key in the form RFC 7518 asks for.  The public JWK is
always as the RFC asks; the private one exactly if the key has all of `p`, `q`, `dp`, `dq`, `qi` (and `d`) or none. -/
theorem C140_export (k : Key) (m : RsaMat) (N : RsaNums) (hm : k.mat = .rsa m) (hN : RsaHolds m N)
    (hkty : k.kty = .str "RSA") (hk : k.key.truthy = true) (priv : Bool) :
    ∃ dict, k.serialize priv = .ok (.dict dict) ∧ RsaMembers dict (if priv then N else N.public) ∧
      (RfcRsaJwk dict ↔ (priv = true → RfcShape N)) := by
  obtain ⟨dict, h1, h2⟩ := rsa_written k m N hm hN hkty hk priv
  refine ⟨dict, h1, h2, (rfcRsa_iff h2).trans ?_⟩
  cases priv with
  | true => simp
  | false => simp [RsaNums.public, RfcShape]

/-- **C140.** A key made from a private RSA object of the library (as `RSAKey(key=...)`, `rsa_load`, `jwkutil`): `d`,
`p` and `q` are written, `dp`, `dq` and `qi` are not; the private JWK is never as the RFC asks. -/
theorem C140_instance (E : Env) (kw : PyDict) (r : RsaKey) (n e d p q : Nat) (hn : r.n = n) (he : r.e = e)
    (hr : r.priv = some ((d : Int), (p : Int), (q : Int))) (hpos : 0 < n ∧ 0 < e ∧ 0 < d ∧ 0 < p ∧ 0 < q)
    (hno : ∀ s ∈ ["self", "kty", "x5c", "n", "e", "d", "p", "q", "dp", "dq", "di", "qi"], PyDict.get? kw s = none) :
    ∃ k pub prv, rsaKeyNew E kw (.rsa r) = .ok k ∧ k.serialize false = .ok (.dict pub) ∧ k.serialize true = .ok (.dict prv) ∧
      RfcRsaJwk pub ∧ RsaMembers prv ⟨n, e, some d, some p, some q, none, none, none, none⟩ ∧ ¬ RfcRsaJwk prv := by
  have g : ∀ s, s ∈ ["self", "kty", "x5c", "n", "e", "d", "p", "q", "dp", "dq", "di", "qi"] → ∀ v, kwGet kw s v = v := by
    intro s hs v
    simp [kwGet, hno s hs]
  obtain ⟨k, m, hk, hkey, hm, ht, hs⟩ := rsaKeyNew_rsa E kw r "" "" (hno _ (by simp))
    (by simp [argText, hno "n" (by simp)]) (by simp [argText, hno "e" (by simp)]) (.inl rfl)
    (.inl (by simp [hno "x5c" (by simp)]))
  have hN : RsaHolds m ⟨n, e, some d, some p, some q, none, none, none, none⟩ := by
    obtain ⟨h1, h2, h3⟩ := ht.ofPrivate (d : Int) p q hr
    obtain ⟨h4, h5, h6, h7⟩ := ht.rest
    have m0 : ∀ v, v = PyVal.str "" → Holds v none := by rintro v rfl; exact .absent rfl
    rw [if_neg (by omega)] at h2
    rw [if_neg (by omega)] at h3
    refine ⟨?_, ?_, ?_, ?_, ?_, ?_, ?_, ?_, ?_⟩
    · rw [ht.n, hn]; exact .number hpos.1
    · rw [ht.e, he]; exact .number hpos.2.1
    · rw [h1]; exact .number hpos.2.2.1
    · rw [h2]; exact .number hpos.2.2.2.1
    · rw [h3]; exact .number hpos.2.2.2.2
    · rw [h4]; exact m0 _ (by simp [rsaMat0, g])
    · rw [h5]; exact m0 _ (by simp [rsaMat0, g])
    · rw [h6]; exact m0 _ (by simp [rsaMat0, g])
    · rw [h7]; exact m0 _ (by simp [rsaMat0, g])
  have hkty : k.kty = .str "RSA" := by
    rw [hs.labels.kty]
    simp [keyCommon, g, strAttr]
  have hkt : k.key.truthy = true := by rw [hkey]; rfl
  obtain ⟨pub, a1, -, a3⟩ := C140_export k m _ hm hN hkty hkt false
  obtain ⟨prv, b1, b2, b3⟩ := C140_export k m _ hm hN hkty hkt true
  refine ⟨k, pub, prv, hk, a1, b1, a3.mpr (by simp), b2, fun h => ?_⟩
  have := b3.mp h rfl
  simp [RfcShape] at this

example : ∃ k pub prv, rsaKeyNew toyEnv [("kid", .str "k1")] (.rsa ⟨3233, 17, some (2753, 61, 53)⟩) = .ok k ∧
    k.serialize false = .ok (.dict pub) ∧ k.serialize true = .ok (.dict prv) ∧ RfcRsaJwk pub ∧ ¬ RfcRsaJwk prv := by
  obtain ⟨k, pub, prv, h1, h2, h3, h4, -, h5⟩ := C140_instance toyEnv [("kid", .str "k1")] ⟨3233, 17, some (2753, 61, 53)⟩ 3233 17
    2753 61 53 rfl rfl rfl (by decide) (by decide +kernel)
  exact ⟨k, pub, prv, h1, h2, h3, h4, h5⟩

/-- A label that is absent or a non-empty text. -/
def Spec.LabelText (d : PyDict) (s : String) : Prop := PyDict.get? d s = none ∨ ∃ t, t ≠ "" ∧ PyDict.get? d s = some (.str t)

/-- **C140 (in).** An RSA JWK by the RFC loads to the key built from `n`, `e`, `d`, `p`, `q` alone.  The numbers `dp`,
`dq`, `qi` are kept and written again as they came; nobody compares them with the others. -/
theorem C140_import (E : Env) (dict : PyDict) (N : RsaNums) (r : RsaKey) (h : RsaMembers dict N)
    (hpos : Pos N.d ∧ Pos N.p ∧ Pos N.q ∧ Pos N.dp ∧ Pos N.dq ∧ Pos N.qi) (hdi : PyDict.get? dict "di" = none) (hNdi : N.di = none)
    (hself : PyDict.get? dict "self" = none) (hkey : PyDict.get? dict "key" = none) (hx5c : PyDict.get? dict "x5c" = none)
    (huse : LabelText dict "use") (hkid : LabelText dict "kid") (halg : LabelText dict "alg")
    (hr : E.R.construct N.tuple = .ok r) :
    ∃ k out, keyrep E dict = .ok k ∧ k.key = .rsa r ∧ k.serialize true = .ok (.dict out) ∧ RsaMembers out N ∧
      (∀ s ∈ ["use", "kid", "alg"], PyDict.get? out s = PyDict.get? dict s) := by
  obtain ⟨g1, g2, g3, g4, g5, g6⟩ := hpos
  have pn : 0 < N.n := by obtain ⟨t, -, b, -, -, -, h⟩ := h.n; exact h
  have pe : 0 < N.e := by obtain ⟨t, -, b, -, -, -, h⟩ := h.e; exact h
  have posN : Pos (some N.n) := fun n h => by cases h; exact pn
  have posE : Pos (some N.e) := fun n h => by cases h; exact pe
  have p0 : Pos none := fun n h => by cases h
  let L : String → PyVal := fun s => (PyDict.get? dict s).getD (.str "")
  let k0 : Key := ⟨.str "RSA", L "alg", L "use", L "kid", .val .none, .list [], .str "", .str "", [], none, .plain⟩
  have lab : ∀ s, LabelText dict s → (∃ t, L s = .str t) ∧ PyDict.get? dict s = if (L s).truthy then some (L s) else none := by
    rintro s (h0 | ⟨t, ht, h0⟩)
    · simp [L, h0, PyVal.truthy]
    · simp [L, h0, PyVal.truthy, ht]
  have hl : LabelsIn dict k0 := ⟨h.kty, (lab _ huse).2, (lab _ hkid).2, (lab _ halg).2⟩
  have htx : TextLabels k0 "RSA" := ⟨rfl, (lab _ halg).1, (lab _ huse).1, (lab _ hkid).1⟩
  obtain ⟨k, m, e1, e2, e3, e4, e5⟩ := rsa_load E k0 N dict r hl htx hself hkey hx5c ((memberIs_txt posN).mp h.n)
    ((memberIs_txt posE).mp h.e) ((memberIs_txt g1).mp h.d) ((memberIs_txt g2).mp h.p) ((memberIs_txt g3).mp h.q)
    ((memberIs_txt g4).mp h.dp) ((memberIs_txt g5).mp h.dq) (by rw [hdi, hNdi]; rfl) ((memberIs_txt g6).mp h.qi)
    pn pe g1 g2 g3 g4 g5 (by rw [hNdi]; exact p0) g6 hr
  have hkt : k.key.truthy = true := by rw [e3]; rfl
  refine ⟨k, ?_⟩
  have hser : k.serialize true = .ok (.dict (optSet (optSet (optSet (optSet (optSet (optSet (optSet
      (optSet (optSet (optSet (optSet k.common "n" (some N.n)) "e" (some N.e)) "n" (some N.n)) "e"
      (some N.e)) "d" N.d) "p" N.p) "q" N.q) "dp" N.dp) "dq" N.dq) "di" N.di) "qi" N.qi)) := by
    simp only [Key.serialize, e4, rsaSerialize, hkt, Bool.true_eq_false, if_false, if_true,
      Bind.bind, Except.bind, serLong_holds e5.n, serLong_holds e5.e, serLong_holds e5.d,
      serLong_holds e5.p, serLong_holds e5.q, serLong_holds e5.dp, serLong_holds e5.dq,
      serLong_holds e5.di, serLong_holds e5.qi, Except.map]
  obtain ⟨out, o1, o2⟩ := rsa_written k m N e4 e5 e2.kty hkt true
  refine ⟨out, e1, e3, o1, o2, ?_⟩
  have eo : out = _ := PyVal.dict.inj (Except.ok.inj (o1.symm.trans hser))
  intro s hs
  simp only [List.mem_cons, List.not_mem_nil, or_false] at hs
  rcases hs with rfl | rfl | rfl
  · rw [eo, hl.use, ← e2.use]; simp [get?_optSet, get?_common]
  · rw [eo, hl.kid, ← e2.kid]; simp [get?_optSet, get?_common]
  · rw [eo, hl.alg, ← e2.alg]; simp [get?_optSet, get?_common]

/-- The key of the example with CRT numbers that are plainly wrong (53, 49 and 38 would be right). -/
def wrongCrt : PyDict :=
  [("kty", .str "RSA"), ("kid", .str "k1"), ("n", .str "DKE"), ("e", .str "EQ"), ("d", .str "CsE"), ("p", .str "PQ"), ("q", .str "NQ"),
   ("dp", .str "AQ"), ("dq", .str "AQ"), ("qi", .str "AQ")]

def wrongNums : RsaNums := ⟨3233, 17, some 2753, some 61, some 53, some 1, some 1, none, some 1⟩

example : RfcRsaJwk wrongCrt ∧ ∃ k out, keyrep toyEnv wrongCrt = .ok k ∧ k.key = .rsa ⟨3233, 17, some (2753, 61, 53)⟩ ∧
    k.serialize true = .ok (.dict out) ∧ RsaMembers out wrongNums := by
  have pos : ∀ n : Nat, 0 < n → Pos (some n) := fun n h m hm => by cases hm; exact h
  have h : RsaMembers wrongCrt wrongNums := by
    constructor
    · rfl
    all_goals exact (memberIs_txt (pos _ (by decide))).mpr (by decide +kernel)
  refine ⟨⟨_, h, .inr (by simp [wrongNums])⟩, ?_⟩
  obtain ⟨k, out, h1, h2, h3, h4, -⟩ := C140_import toyEnv wrongCrt wrongNums ⟨3233, 17, some (2753, 61, 53)⟩ h
    ⟨pos _ (by decide), pos _ (by decide), pos _ (by decide), pos _ (by decide), pos _ (by decide), pos _ (by decide)⟩
    rfl rfl rfl rfl rfl (.inl rfl) (.inr ⟨"k1", by decide, rfl⟩) (.inl rfl) (by decide +kernel)
  exact ⟨k, out, h1, h2, h3, h4⟩

end Verif
