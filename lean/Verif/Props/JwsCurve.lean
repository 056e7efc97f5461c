import Verif.Props.JwsSign
import Verif.Props.JwsState
import Verif.Props.JwsForms
import Verif.Props.Real
/-
C112: the curve that an EC key names plays no role for ES256, ES384, ES512.
C113: header members that occur more than once.
-/

namespace Verif
open Spec

/-- The same key, but for the named curve, the private number and the curve object, if it is an EC key. -/
def Spec.Recurved (k k' : Key) : Prop :=
  k' = k ∨ ∃ crv x y d c crv' d' c', k.mat = .ec crv x y d c ∧ k' = { k with mat := .ec crv' x y d' c' }

theorem recurved_symm {k k' : Key} (h : Recurved k k') : Recurved k' k := by
  rcases h with rfl | ⟨crv, x, y, d, c, crv', d', c', h, rfl⟩
  · exact .inl rfl
  · refine .inr ⟨crv', x, y, d', c', crv, d, c, rfl, ?_⟩
    cases k
    simp only at h
    subst h
    rfl

theorem recurved_getKey {k k' : Key} (h : Recurved k k') : k'.getKey false = k.getKey false := by
  rcases h with rfl | ⟨crv, x, y, d, c, crv', d', c', h, rfl⟩
  · rfl
  · unfold Key.getKey
    rw [h]
    rfl

theorem recurved_suitable {k k' : Key} (h : Recurved k k') (a : SigAlg) (name : String) (kid : PyVal) :
    Suitable a name kid k' ↔ Suitable a name kid k := by
  rcases h with rfl | ⟨crv, x, y, d, c, crv', d', c', h, rfl⟩ <;> exact Iff.rfl

theorem forall₂_split {α β : Type} {R : α → β → Prop} : ∀ {pre : List α} {a : α} {post : List α} {l : List β},
    List.Forall₂ R (pre ++ a :: post) l →
    ∃ pre' b post', l = pre' ++ b :: post' ∧ List.Forall₂ R pre pre' ∧ R a b ∧ List.Forall₂ R post post'
  | [], _, _, _, h => by
    cases h with
    | cons h1 h2 => exact ⟨[], _, _, rfl, .nil, h1, h2⟩
  | _ :: _, _, _, _, h => by
    cases h with
    | cons h1 h2 =>
      obtain ⟨pre', b, post', rfl, h3, h4, h5⟩ := forall₂_split h2
      exact ⟨_ :: pre', b, post', rfl, .cons h1 h3, h4, h5⟩

theorem forall₂_mem_right {α β : Type} {R : α → β → Prop} : ∀ {l : List α} {l' : List β}, List.Forall₂ R l l' →
    ∀ b ∈ l', ∃ a ∈ l, R a b
  | _, _, .nil, b, h => by cases h
  | _, _, .cons h1 h2, b, h => by
    rcases List.mem_cons.mp h with rfl | h
    · exact ⟨_, by simp, h1⟩
    · obtain ⟨a, ha, hr⟩ := forall₂_mem_right h2 b h
      exact ⟨a, by simp [ha], hr⟩

/-- **C112.** Verification does not look at the curve an EC key names (nor at its private number): with any other
ones the same tokens are accepted. -/
theorem C112_verify (E : Env) (o : Jwx) (jws : Bytes) (keys keys' : List Key) (hkne : keys ≠ [])
    (hr : List.Forall₂ Recurved keys keys') (an : Bool) (sigalg m : PyVal) (k : Key)
    (h : (o.verifyVerbose E jws keys an sigalg).1 = .ok (m, some k)) :
    ∃ k', Recurved k k' ∧ (o.verifyVerbose E jws keys' an sigalg).1 = .ok (m, some k') := by
  obtain ⟨s0, s1, hdr, p, sig, name, a, kid, l, ht, hal, hsup, h1, h2, heff, hkid,
    ⟨pre, post, hl, hs, hA, hpre⟩, hm⟩ := (verifyVerbose_iff E o jws keys an sigalg m k).mp h
  obtain ⟨-, rfl⟩ := heff.resolve_right (fun hx => hkne hx.1)
  subst hl
  obtain ⟨pre', k', post', rfl, r1, r2, -⟩ := forall₂_split hr
  refine ⟨k', r2, (verifyVerbose_iff E o jws _ an sigalg m k').mpr
    ⟨s0, s1, hdr, p, sig, name, a, kid, _, ht, hal, hsup, h1, h2, .inl ⟨by simp, rfl⟩, hkid,
      ⟨pre', post', rfl, (recurved_suitable r2 _ _ _).mpr hs, ?_, ?_⟩, hm⟩⟩
  · rw [← verify_iff] at hA ⊢
    rw [recurved_getKey r2]
    exact hA
  · intro x hx hsx
    obtain ⟨y, hy, hxy⟩ := forall₂_mem_right r1 x hx
    have := hpre y hy ((recurved_suitable hxy _ _ _).mp hsx)
    unfold SoftFail at this ⊢
    rw [recurved_getKey hxy]
    exact this

/-- **C112.** What a key signs with ES256, ES384 or ES512 is accepted by the key whose point is the product of its private
number and the base point of the curve of the *algorithm*, whatever curve and point the signing key names. -/
theorem C112_sign (E : Env) (hR : E.R.Lawful) (o : Jwx) (keys : List Key) (hkne : keys ≠ [])
    (prot : PyDict) (rnd : Nat) (t name : String) (h : HashAlg) (hsup : SupportedAlg name (.es h))
    (hA : AlgFor o keys (.str name)) (hp : (PyVal.dict prot).jsonable = true)
    (hkj : ∀ k ∈ keys, k.kid.jsonable = true)
    (hty : ∀ v, PyDict.get? o.dict "typ" = some v → v.jsonable = true) (hmsg : PartOk o.msg)
    (hs : (o.signCompact E keys prot rnd).1 = .ok t) :
    ∃ k kid hdr p sig s0, k ∈ keys ∧ SignSuitable (.es h) name kid k ∧
      Token (utf8Encode t) s0 (b64e p) (.dict hdr) p sig ∧
      ∀ C crv x y d c, CurveFor h C → k.mat = .ec crv x y (.int d) c →
        ∀ (k' : Key) crv' d' c' i j, k'.mat = .ec crv' (.int i) (.int j) d' c' → i ≠ 0 → j ≠ 0 →
          C.publicKeyFor (d.fmod C.N).toNat = some (i, j) → Accepts E k' (s0 ++ 46 :: b64e p) sig (.es h) := by
  obtain ⟨k, kid, ka, hdr, p, sig, s0, hkm, hss, htok, hspec, hPB, hpb, hka, hsig⟩ := sign_parts E o keys
    hkne prot rnd t name _ hsup hA hp hkj hty hmsg hs
  refine ⟨k, kid, hdr, p, sig, s0, hkm, hss, htok, ?_⟩
  intro C crv x y d c hC hm k' crv' d' c' i j hm' hi hj hpub
  have hka2 : ({ k with mat := .ec crv (.int i) (.int j) (.int d) c } : Key).getKey true = .ok ka := by
    rw [← hka]
    unfold Key.getKey
    rw [hm]
    rfl
  have hacc := sign_accepts hR (k := { k with mat := .ec crv (.int i) (.int j) (.int d) c }) (a := .es h)
    ⟨C, crv, d, i, j, c, hC, rfl, hi, hj, hpub⟩ hka2 hsig
  obtain ⟨C2, P, hC2, hP, hv⟩ := hacc
  refine ⟨C2, P, hC2, ?_, hv⟩
  rcases hP with ⟨_, _, _, _, _, i', j', hx, hxi, hxj, n1, n2, rfl⟩ | ⟨hn, -⟩
  · cases hx
    exact .inl ⟨_, _, _, _, _, _, _, hm', hxi, hxj, n1, n2, rfl⟩
  · exact absurd ⟨_, _, _, _, _, rfl⟩ hn

/-- The key of C107 under the name of another curve, with a private number of no meaning. -/
def exEsKey521 : Key :=
  let m : Mat := .ec (.str "P-521")
    (.int 57807358241436249728379122087876380298924820027722995515715270765240753673285)
    (.int 90436541859143682268950424386863654389577770182238183823381687388274600502701)
    (.int 7) (.val .none)
  { exEsKey with mat := m }

example := C112_verify stdEnv {} _ [exEsKey] [exEsKey521] (by simp)
  (.cons (.inr ⟨_, _, _, _, _, _, _, _, rfl, rfl⟩) .nil) false .none _ _ exEs_ok

/-- The private key of RFC 7515 A.3 under the name of another curve, with a point of no meaning. -/
def exEsPriv : Key :=
  let m : Mat := .ec (.str "P-521") (.int 1) (.int 2)
    (.int 64502400493437371358766275827725703314178640739253280897215993954599262549170) (.val .none)
  { exEsKey with mat := m }

theorem exEsPriv_ok : (({ msg := .str "{}", dict := [("alg", .str "ES256")] } : Jwx).signCompact stdEnv
    [exEsPriv] [] 2).1 = .ok ("eyJhbGciOiJFUzI1NiJ9.e30.Xsvk0aYzCkTI9--VHUvxZebGtyHvramF-0FmG8bn_Wz6OJZQLEvrVkJ2JFtPa4kl" ++
      "IG_LfUrvua98P54wWbdTyg") := by decide +kernel

example := C112_sign stdEnv stdEnv_standard.rsaLaw _ [exEsPriv] (by simp) [] 2 _ "ES256" .sha256 .ES256
  (.inl ⟨rfl, rfl⟩) (by decide) (by intro k hk; cases List.mem_singleton.mp hk; decide)
  (by intro v hv; cases hv) (by exact trivial) exEsPriv_ok

/-! ### C113: members that occur more than once -/

/-- The value of the last member called `n`. -/
def Spec.LastMember (l : List (String × PyVal)) (n : String) (v : PyVal) : Prop :=
  ∃ pre post, l = pre ++ (n, v) :: post ∧ ∀ p ∈ post, p.1 ≠ n

theorem get?_dictOfPairs (l : List (String × PyVal)) (n : String) (v : PyVal) :
    PyDict.get? (dictOfPairs l) n = some v ↔ LastMember l n v := by
  have key : ∀ (l : List (String × PyVal)) (d : PyDict),
      PyDict.get? (l.foldl (fun d kv => PyDict.set d kv.1 kv.2) d) n = some v ↔
        LastMember l n v ∨ ((∀ p ∈ l, p.1 ≠ n) ∧ PyDict.get? d n = some v) := by
    intro l
    induction l with
    | nil =>
      intro d
      simp [LastMember]
    | cons q l ih =>
      intro d
      rw [List.foldl_cons, ih, PyDict.get?_set]
      constructor
      · rintro (⟨pre, post, rfl, hp⟩ | ⟨h1, h2⟩)
        · exact .inl ⟨q :: pre, post, rfl, hp⟩
        · by_cases hq : n = q.1
          · rw [if_pos hq] at h2
            cases h2
            exact .inl ⟨[], l, by rw [hq]; rfl, h1⟩
          · rw [if_neg hq] at h2
            refine .inr ⟨fun p hp => ?_, h2⟩
            rcases List.mem_cons.mp hp with rfl | hp
            · exact fun e => hq e.symm
            · exact h1 p hp
      · rintro (⟨pre, post, he, hp⟩ | ⟨h1, h2⟩)
        · cases pre with
          | nil =>
            cases he
            exact .inr ⟨hp, by rw [if_pos rfl]⟩
          | cons a pre =>
            cases he
            exact .inl ⟨pre, post, rfl, hp⟩
        · exact .inr ⟨fun p hp => h1 p (by simp [hp]), by rw [if_neg (fun e => h1 q (by simp) e.symm)]; exact h2⟩
  have := key l []
  unfold dictOfPairs
  rw [this]
  simp [PyDict.get?]

/-- `s` is the text of an object with the members `l` in this order, whose names need not be distinct, with white
space `w1` after the commas and `w2` after the colons. -/
def Spec.ObjectText (l : List (String × PyVal)) (s : String) : Prop :=
  ∃ w1 w2, (∀ c ∈ w1, isWs c = true) ∧ (∀ c ∈ w2, isWs c = true) ∧
    dumpV (',' :: w1) (':' :: w2) (.dict l) = .ok s.toList

/-- **C113.** `json.loads` of an object text keeps the last of several members with the same name. -/
theorem C113_loads (l : List (String × PyVal)) (hl : ∀ p ∈ l, p.2.jsonable = true) (s : String)
    (hs : ObjectText l s) :
    ∃ d, jsonLoads s = .ok (.dict d) ∧ ∀ n v, PyDict.get? d n = some v ↔ LastMember l n v := by
  obtain ⟨w1, w2, h1, h2, ho⟩ := hs
  have hD : PyVal.jsonableD l = true := by
    clear ho
    induction l with
    | nil => rfl
    | cons q l ih =>
      obtain ⟨n, v⟩ := q
      simp only [PyVal.jsonableD, Bool.and_eq_true]
      exact ⟨hl (n, v) (by simp), ih (fun p hp => hl p (by simp [hp]))⟩
  refine ⟨dictOfPairs l, ?_, get?_dictOfPairs l⟩
  cases l with
  | nil =>
    simp only [dumpV, Except.ok.injEq] at ho
    unfold jsonLoads
    rw [← ho]
    decide
  | cons q l =>
    obtain ⟨n, v⟩ := q
    simp only [PyVal.jsonableD, Bool.and_eq_true] at hD
    obtain ⟨a, ha⟩ := dumpV_ok (',' :: w1) (':' :: w2) v hD.1
    obtain ⟨b, hb⟩ := dumpD_ok (',' :: w1) (':' :: w2) l hD.2
    have hp := parseD_dumpD w1 w2 h1 h2 l hD.2 b hb n v a hD.1 ha (parseV_dumpV w1 w2 h1 h2 v hD.1 a ha)
    simp only [dumpV, ha, hb, Bind.bind, Except.bind, Except.ok.injEq] at ho
    have hv : ∀ f, a.length + b.length + 1 < f → parseV (f + 1) ('{' :: (jsonStr n ++ ':' :: w2 ++ a ++ b ++ ['}'])) =
        some (.dict (dictOfPairs ((n, v) :: l)), []) := by
      intro f hf
      have := hp f [] hf
      unfold parseV
      unfold jsonStr at this ⊢
      simp only [List.cons_append, List.append_assoc, List.nil_append] at this ⊢
      rw [skipWs_cons (by decide)]
      show (parseD f _).bind _ = _
      rw [this]
      rfl
    unfold jsonLoads
    rw [← ho]
    simp only [List.cons_append]
    rw [skipWs_cons (by decide)]
    simp only [List.append_assoc, List.cons_append, List.length_append, List.length_cons, List.length_nil] at hv ⊢
    rw [hv _ (by omega)]
    rfl

example := C113_loads [("alg", .str "none"), ("a", .int 1), ("alg", .str "HS256")] (by simp [PyVal.jsonable])
  "{\"alg\":\"none\",\"a\":1,\"alg\":\"HS256\"}" ⟨[], [], by simp, by simp, by decide +kernel⟩

/-- **C113.** A token whose header names its algorithm more than once is judged by the last one. -/
theorem C113_alg (E : Env) (o : Jwx) (s0 s1 s2 : Bytes) (hd0 : (46 : UInt8) ∉ s0) (hd1 : (46 : UInt8) ∉ s1)
    (keys : List Key) (an : Bool) (sigalg m : PyVal) (k : Key) (s : String) (l : List (String × PyVal))
    (hs : b64d s0 = .ok (utf8Encode s)) (hl : ∀ p ∈ l, p.2.jsonable = true) (ho : ObjectText l s)
    (h : (o.verifyVerbose E (s0 ++ 46 :: s1 ++ 46 :: s2) keys an sigalg).1 = .ok (m, some k)) :
    ∃ name a sig, LastMember l "alg" (.str name) ∧ SupportedAlg name a ∧ b64d s2 = .ok sig ∧
      Accepts E k (s0 ++ 46 :: s1) sig a := by
  obtain ⟨t0, t1, hdr, p, sig, name, a, kid, ht, hal, hsup, -, -, -, -, hA, -⟩ :=
    C13_sound E o _ keys an sigalg m k h
  obtain ⟨⟨t2, he, h2, -⟩, ⟨n0, n1⟩, ⟨hb, hs', hb0, hu, hj⟩, -⟩ := ht
  obtain rfl := split_first hd0 n0 (by simpa using he)
  simp only [List.append_assoc, List.cons_append, List.append_cancel_left_eq, List.cons.injEq, true_and] at he
  obtain rfl := split_first hd1 n1 he
  simp only [List.append_cancel_left_eq, List.cons.injEq, true_and] at he
  subst he
  obtain ⟨d, hj', hd⟩ := C113_loads l hl s ho
  rw [hs] at hb0
  cases hb0
  rw [utf8Decode_encode] at hu
  cases hu
  rw [hj'] at hj
  cases hj
  exact ⟨name, a, sig, (hd _ _).mp hal, hsup, h2, hA⟩

/-- The header names "none" first. -/
theorem exTwice_ok : (({} : Jwx).verifyVerbose toyEnv (ascii "eyJhbGciOiJub25lIiwiYWxnIjoiSFMyNTYifQ" ++
    46 :: ascii "e30" ++ 46 :: ascii "a2V5SmhiR2NpT2lKdWIyNWxJaXdpWVd4bklqb2lTRk0") [exKey] false .none).1 =
    .ok (.dict [], some exKey) := by decide +kernel

example := C113_alg toyEnv {} _ _ _ (by decide) (by decide) [exKey] false .none _ _
  "{\"alg\":\"none\",\"alg\":\"HS256\"}" [("alg", .str "none"), ("alg", .str "HS256")] (by decide +kernel)
  (by simp [PyVal.jsonable]) ⟨[], [], by simp, by simp, by decide +kernel⟩ exTwice_ok

end Verif
