import Verif.Props.JwsSign
/-
C26, C66, C76, C77: critical headers, `left_hash`, objects without an algorithm, degenerate keys.
-/

namespace Verif
open Spec NistCurve

/-! ### C26 -/

/-- The violation: a correctly keyed token is accepted whatever its `crit` header says. -/
theorem C26_ignored (E : Env) (hjb : JsonBytesLawful E.jsonBytes) (hdr : PyDict) (crit : PyVal)
    (hj : (PyVal.dict hdr).jsonable = true) (hcj : crit.jsonable = true) (name : String) (h : HashAlg)
    (hsup : SupportedAlg name (.hs h)) (hal : PyDict.get? hdr "alg" = some (.str name))
    (hcty : PyDict.get? hdr "cty" = none ∨ ∃ c, PyDict.get? hdr "cty" = some (.str c))
    (k : Key) (hkid : ∀ v, PyDict.get? hdr "kid" = some v → v.truthy = true → v.pyEq k.kid = true)
    (hkty : k.kty = .str "oct") (halg : k.alg.truthy = false) (hec : ¬ IsEc k) (secret : Bytes)
    (hkey : k.key = .val (.bytes secret)) (payload : Bytes) (an : Bool) :
    ∃ s0 hs m, b64d s0 = .ok (utf8Encode hs) ∧
      jsonLoads hs = .ok (.dict (PyDict.set hdr "crit" crit)) ∧
      (({} : Jwx).verifyVerbose E (s0 ++ 46 :: b64e payload ++ 46 ::
        b64e (E.H.hmac h secret (s0 ++ 46 :: b64e payload))) [k] an .none).1 = .ok (m, some k) := by
  obtain ⟨b, hb, hs, rfl, hlo⟩ := b64encodeItem_ok (.dict (PyDict.set hdr "crit" crit))
    (jsonable_set _ _ _ hj hcj)
  have hother : ∀ n, n ≠ "crit" → PyDict.get? (PyDict.set hdr "crit" crit) n = PyDict.get? hdr n := by
    intro n hn; rw [PyDict.get?_set]; simp [hn]
  have htok : Token (b64e (utf8Encode hs) ++ 46 :: b64e payload ++ 46 ::
        b64e (E.H.hmac h secret (b64e (utf8Encode hs) ++ 46 :: b64e payload)))
      (b64e (utf8Encode hs)) (b64e payload) (.dict (PyDict.set hdr "crit" crit)) payload
      (E.H.hmac h secret (b64e (utf8Encode hs) ++ 46 :: b64e payload)) :=
    ⟨⟨_, rfl, C01_roundtrip _, b64e_no_dot _⟩, ⟨b64e_no_dot _, b64e_no_dot _⟩,
      ⟨_, hs, C01_roundtrip _, utf8Decode_encode _, hlo⟩, C01_roundtrip _⟩
  obtain ⟨s2, hb2, hun⟩ := unpack_of_token htok
  obtain ⟨m, hm⟩ := C10_total E.jsonBytes hjb _ _ hun _ rfl
    (by rw [hother "cty" (by decide)]; exact hcty)
  have hM := (message_iff E.jsonBytes _ _ _ m rfl rfl).mp hm
  refine ⟨_, hs, m, C01_roundtrip _, hlo, ?_⟩
  obtain ⟨wk, hwk⟩ := wantedKid_exists [] (PyDict.set hdr "crit" crit)
  refine (verifyVerbose_iff _ _ _ _ _ _ _ _).mpr ⟨_, _, _, _, _, name, .hs h, wk, [k], htok,
    by rw [hother "alg" (by decide)]; exact hal, hsup, by simp [PyDict.get?], by simp [none_truthy],
    .inl ⟨by simp, rfl⟩, hwk, ⟨[], [], rfl, ⟨.inl hkty, ?_, by simp [halg]⟩, ⟨hec, secret, hkey, rfl⟩,
      by simp⟩, hM⟩
  intro hwt
  rcases hwk with h | ⟨-, h⟩ | ⟨-, -, rfl⟩
  · simp [PyDict.get?] at h
  · rw [hother "kid" (by decide)] at h
    exact hkid wk h hwt
  · simp [none_truthy] at hwt

/-- The keyword `crit` is never stored; it replaces the `x5c` value instead. -/
theorem C26_ctor (E : Env) (msg : PyVal) (kw : PyDict) (o : Jwx) (c : PyVal)
    (hc : PyDict.get? kw "crit" = some c) (h : Jws.new E msg kw = .ok o) :
    PyDict.get? o.dict "crit" = none ∧
    PyDict.get? o.dict "x5c" = some (if c.truthy then c else .list []) := by
  have hc' : PyDict.get? (stripInit kw) "crit" = some c := by
    unfold stripInit
    rw [PyDict.get?] at hc ⊢
    clear h
    induction kw with
    | nil => simp at hc
    | cons x l ih =>
      obtain ⟨a, v⟩ := x
      by_cases ha : "crit" = a
      · subst ha
        rw [List.filter_cons_of_pos (by simp)]
        simpa using hc
      · have ha' : ("crit" == a) = false := by simpa using ha
        rw [List.lookup_cons, ha'] at hc
        rw [List.filter_cons]
        split
        · rw [List.lookup_cons, ha']; exact ih hc
        · exact ih hc
  have hne : (stripInit kw).isEmpty = false := by
    cases hs : stripInit kw with
    | nil => rw [hs] at hc'; simp [PyDict.get?] at hc'
    | cons _ _ => rfl
  have key : ∀ d0, PyDict.get? d0 "crit" = none →
      PyDict.get? (jwsArgs2.foldl (initStep (stripInit kw)) (jwsArgs1.foldl (initStep (stripInit kw)) d0))
        "crit" = none ∧
      PyDict.get? (jwsArgs2.foldl (initStep (stripInit kw)) (jwsArgs1.foldl (initStep (stripInit kw)) d0))
        "x5c" = some (if c.truthy then c else .list []) := by
    intro d0 hd0
    have h1 : ∀ (l : List String) (d : PyDict), "crit" ∉ l → PyDict.get? d "crit" = none →
        PyDict.get? (l.foldl (initStep (stripInit kw)) d) "crit" = none := by
      intro l
      induction l with
      | nil => intro d _ h; exact h
      | cons a l ih =>
        intro d hn hd
        simp only [List.mem_cons, not_or] at hn
        refine ih _ hn.2 ?_
        unfold initStep
        split
        · split
          · rw [PyDict.get?_set]; simp [hd]
          · exact hd
        · split
          · rw [PyDict.get?_set]; simp [hd]
          · rw [PyDict.get?_set]; simp [hd, hn.1]
    have h2 := h1 jwsArgs1 d0 (by decide) hd0
    have h3 := h1 ["x5u", "x5t", "x5c", "kid", "typ", "cty"] _ (by decide) h2
    rw [show jwsArgs2 = ["x5u", "x5t", "x5c", "kid", "typ", "cty"] ++ ["crit"] by rfl,
      List.foldl_append]
    generalize List.foldl (initStep (stripInit kw)) (List.foldl _ d0 jwsArgs1)
      ["x5u", "x5t", "x5c", "kid", "typ", "cty"] = d at h3
    simp only [List.foldl_cons, List.foldl_nil, initStep, hc', or_true, if_true]
    rw [PyDict.get?_set, PyDict.get?_set]
    simp [h3]
  unfold Jws.new at h
  split at h
  · simp at h
  · unfold Jwx.initBody at h
    simp only [hne, Bool.false_eq_true, if_false] at h
    split at h
    · simp only [Except.map, Except.ok.injEq] at h
      subst h
      exact key [] (by simp [PyDict.get?])
    · split at h
      · simp only [Except.map, Except.ok.injEq] at h
        subst h
        exact key [] (by simp [PyDict.get?])
      · simp [Except.map] at h

example : (Jws.new toyEnv .none [("alg", .str "HS256"), ("x5c", .list [.str "cert"]),
    ("crit", .list [.str "exp"])]).map Jwx.dict =
    .ok [("alg", .str "HS256"), ("x5c", .list [.str "exp"])] := by decide +kernel

example : ∃ m k, (({} : Jwx).verifyVerbose toyEnv (ascii ("eyJhbGciOiJIUzI1NiIsImNyaXQiOlsiZXhwIl19.e30." ++
    "a2V5SmhiR2NpT2lKSVV6STFOaUlzSW1OeWFYUWlPbHM")) [exKey] false .none).1 = .ok (m, some k) :=
  ⟨.dict [], exKey, by decide +kernel⟩

/-! ### C66 -/

theorem C66_left_hash (H : Hashes) (hH : H.Lawful) (msg : String) (name : String) (h : HashAlg)
    (n : Nat) (hn : (name, h, n) ∈ [("HS256", HashAlg.sha256, 22), ("HS384", .sha384, 32),
      ("HS512", .sha512, 43)]) :
    ∃ s, leftHash H msg name = some (.str s) ∧ s.length = n ∧
      b64d (utf8Encode s) = .ok ((H.hash h (utf8Encode msg)).take (h.size / 2)) ∧
      '=' ∉ s.toList := by
  have key : ∀ b : Bytes, ∃ s, asUnicode (b64e b) = .str s ∧ s.length = (4 * b.length + 2) / 3 ∧
      b64d (utf8Encode s) = .ok b ∧ '=' ∉ s.toList := by
    intro b
    obtain ⟨s, hs⟩ := asciiDecode_of_lt (b64e_ascii b)
    have he := asciiEncode_decode hs
    have hu := (asciiEncode_utf8 he).1
    obtain ⟨hlen, h61⟩ := C02_length b
    have hmap : s.toList.map (fun c => UInt8.ofNat c.toNat) = b64e b := by
      unfold asciiEncode at he
      split at he
      · exact Except.ok.inj he
      · simp at he
    refine ⟨s, by rw [← hu, asUnicode_encode], ?_, by rw [hu, C01_roundtrip], ?_⟩
    · rw [← hlen, ← hmap, List.length_map]; exact String.length_toList.symm
    · intro h
      exact h61 (by rw [← hmap]; exact List.mem_map.mpr ⟨_, h, by decide⟩)
  have hl : ∀ a m, ((H.hash a m).take (a.size / 2)).length = a.size / 2 := by
    intro a m
    rw [List.length_take, hH.hash_length]
    cases a <;> decide
  simp only [List.mem_cons, Prod.mk.injEq, List.not_mem_nil, or_false] at hn
  rcases hn with ⟨rfl, rfl, rfl⟩ | ⟨rfl, rfl, rfl⟩ | ⟨rfl, rfl, rfl⟩
  · obtain ⟨s, h1, h2, h3, h4⟩ := key ((H.hash .sha256 (utf8Encode msg)).take (HashAlg.sha256.size / 2))
    exact ⟨s, by rw [← h1]; rfl, by rw [h2, hl]; rfl, h3, h4⟩
  · obtain ⟨s, h1, h2, h3, h4⟩ := key ((H.hash .sha384 (utf8Encode msg)).take (HashAlg.sha384.size / 2))
    exact ⟨s, by rw [← h1]; rfl, by rw [h2, hl]; rfl, h3, h4⟩
  · obtain ⟨s, h1, h2, h3, h4⟩ := key ((H.hash .sha512 (utf8Encode msg)).take (HashAlg.sha512.size / 2))
    exact ⟨s, by rw [← h1]; rfl, by rw [h2, hl]; rfl, h3, h4⟩

theorem C66_other (H : Hashes) (msg name : String) (hn : name ∉ ["HS256", "HS384", "HS512"]) :
    leftHash H msg name = none := by
  simp only [List.mem_cons, List.not_mem_nil, or_false, not_or] at hn
  simp [leftHash, hn]

example : leftHash toyHashes "abc" "HS256" = some (.str "YWJjAAAAAAAAAAAAAAAAAA") := by decide +kernel

/-! ### C76 -/

/-- An object constructed with keyword arguments but without `alg` has the algorithm "none". -/
theorem new_no_alg {E : Env} {msg : PyVal} {kw : PyDict} {o : Jwx}
    (hkw : ∃ n v, (n, v) ∈ kw ∧ n ≠ "msg" ∧ n ≠ "with_digest") (ha : PyDict.get? kw "alg" = none)
    (h : Jws.new E msg kw = .ok o) :
    PyDict.get? o.dict "alg" = some (.str "none") ∧ o.msg = msg := by
  have ha' : PyDict.get? (stripInit kw) "alg" = none := by
    rw [PyDict.get?] at ha ⊢
    rw [List.lookup_eq_none_iff] at ha ⊢
    intro p hp
    exact ha p (List.mem_of_mem_filter hp)
  have hne : (stripInit kw).isEmpty = false := by
    obtain ⟨n, v, hm, h1, h2⟩ := hkw
    have : (n, v) ∈ stripInit kw := List.mem_filter.mpr ⟨hm, by simp [h1, h2]⟩
    cases hs : stripInit kw with
    | nil => rw [hs] at this; simp at this
    | cons _ _ => rfl
  have h1 : ∀ (l : List String) (d : PyDict), "alg" ∉ l → PyDict.get? d "alg" = some (.str "none") →
      PyDict.get? (l.foldl (initStep (stripInit kw)) d) "alg" = some (.str "none") := by
    intro l
    induction l with
    | nil => intro d _ h; exact h
    | cons a l ih =>
      intro d hn hd
      simp only [List.mem_cons, not_or] at hn
      refine ih _ hn.2 ?_
      unfold initStep
      split
      · rw [if_neg (by exact fun h => hn.1 h.symm)]; exact hd
      · split
        · rw [PyDict.get?_set]; simp [hd]
        · rw [PyDict.get?_set]; simp [hd, hn.1]
  have key : PyDict.get? (jwsArgs2.foldl (initStep (stripInit kw))
      (jwsArgs1.foldl (initStep (stripInit kw)) [])) "alg" = some (.str "none") := by
    refine h1 _ _ (by decide) ?_
    rw [show jwsArgs1 = ["alg"] ++ ["jku"] by rfl, List.foldl_append]
    refine h1 _ _ (by decide) ?_
    simp [initStep, ha', PyDict.get?_set]
  unfold Jws.new at h
  split at h
  · simp at h
  · unfold Jwx.initBody at h
    simp only [hne, Bool.false_eq_true, if_false] at h
    split at h
    · simp only [Except.map, Except.ok.injEq] at h
      subst h
      exact ⟨key, rfl⟩
    · split at h
      · simp only [Except.map, Except.ok.injEq] at h
        subst h
        exact ⟨key, rfl⟩
      · simp [Except.map] at h

/-- Such an object refuses every signed token, and never signs. -/
theorem C76_no_alg (E : Env) (msg : PyVal) (kw : PyDict) (o : Jwx)
    (hkw : ∃ n v, (n, v) ∈ kw ∧ n ≠ "msg" ∧ n ≠ "with_digest") (ha : PyDict.get? kw "alg" = none)
    (h : Jws.new E msg kw = .ok o) :
    (∀ jws keys an sigalg m k, (o.verifyVerbose E jws keys an sigalg).1 ≠ .ok (m, some k)) ∧
    ∀ keys prot rnd t, (o.signCompact E keys prot rnd).1 = .ok t →
      ∃ s0 s1, utf8Encode t = s0 ++ 46 :: s1 ++ [46] := by
  obtain ⟨hal, -⟩ := new_no_alg hkw ha h
  constructor
  · intro jws keys an sigalg m k hv
    obtain ⟨s0, s1, hdr, p, sig, name, a, kid, l, -, -, hsup, hown, -⟩ :=
      (verifyVerbose_iff _ _ _ _ _ _ _ _).mp hv
    have := hown _ hal
    cases this
    exact (supported_alg2keytype hsup).1 (by decide)
  · intro keys prot rnd t ht
    obtain ⟨alg, s0, s1, hA, ⟨-, h⟩ | ⟨name, a, k, l, kid, ka, sig, rfl, hsup, -⟩⟩ :=
      C21_exact E o keys prot rnd t ht
    · exact ⟨s0, s1, h⟩
    · exfalso
      have : PyVal.str name = .str "none" := by
        rcases hA with ⟨h, -⟩ | ⟨h, -⟩ | ⟨-, h⟩
        · rw [hal] at h; exact (Option.some.inj h).symm
        · rw [hal] at h; simp at h
        · exact h
      cases this
      exact (supported_alg2keytype hsup).1 (by decide)

/-- In particular `JWS(msg, jwk=key)`. -/
theorem C76_jwk (E : Env) (msg : PyVal) (key : Key) :
    ∃ o, Jws.newWithKey E msg [] key = .ok o ∧ o.jwk = some (.key key) ∧
    (∀ jws keys an sigalg m k, (o.verifyVerbose E jws keys an sigalg).1 ≠ .ok (m, some k)) := by
  refine ⟨{ msg, dict := [("alg", .str "none")], jwk := some (.key key) }, rfl, rfl, ?_⟩
  intro jws keys an sigalg m k hv
  obtain ⟨s0, s1, hdr, p, sig, name, a, kid, l, -, -, hsup, hown, -⟩ :=
    (verifyVerbose_iff _ _ _ _ _ _ _ _).mp hv
  have := hown (.str "none") rfl
  cases this
  exact (supported_alg2keytype hsup).1 (by decide)

example : (Jws.new toyEnv (.str "m") [("kid", .str "1")]).map Jwx.dict =
    .ok [("alg", .str "none"), ("kid", .str "1")] := by decide +kernel

/-! ### C77 -/

/-- The signature that the point at infinity accepts: `(G.x mod N, e)`. -/
def forgedSig (C : NistCurve) (e : Nat) : Bytes :=
  C.int2bytes (C.G.1.toNat % C.N) ++ C.int2bytes e

theorem infinity_accepts {C : NistCurve} (hC : SoundCurve C) (hG0 : 0 ≤ C.G.1) (hGp : C.G.1 < C.p)
    (hr : C.G.1.toNat % C.N ≠ 0) (h : Nat) (h0 : 0 < shrink C.N h) (h1 : shrink C.N h < C.N) :
    C.verify h (forgedSig C (shrink C.N h)) none = .ok true := by
  have : Fact C.p.Prime := ⟨hC.p_prime⟩
  have : Fact C.N.Prime := ⟨hC.N_prime⟩
  obtain ⟨G, hG, -⟩ := hC.base
  have hN := hC.N_prime.pos
  have lr : (C.int2bytes (C.G.1.toNat % C.N)).length = C.bytes :=
    longToBytes_length _ _ hC.bytes_pos (lt_of_lt_of_le (Nat.mod_lt _ hN) hC.N_fits)
  rw [(NistCurve.C53_verify hC G 0 hG none rfl h _).1]
  unfold forgedSig
  rw [List.take_left' lr, List.drop_left' lr]
  unfold NistCurve.int2bytes
  rw [bytesToNat_longToBytes, bytesToNat_longToBytes]
  refine ⟨Nat.pos_of_ne_zero hr, Nat.mod_lt _ hN, h0, h1, ?_⟩
  have he : ((shrink C.N h : ℕ) : ZMod C.N) ≠ 0 := by
    intro hz
    rw [ZMod.natCast_eq_zero_iff] at hz
    exact absurd (Nat.le_of_dvd h0 hz) (by omega)
  rcases hCG : C.G with ⟨gx, gy⟩
  rw [hCG] at hG hG0 hGp
  obtain ⟨hns, rfl⟩ := hG
  refine ⟨_, _, hns, ?_, ?_⟩
  · rw [mul_inv_cancel₀ he, nsmul_zero, add_zero]
    have : Fact (1 < C.N) := ⟨hC.N_prime.one_lt⟩
    rw [ZMod.val_one, one_smul]
  · obtain ⟨n, rfl⟩ := Int.eq_ofNat_of_zero_le hG0
    simp only [Int.cast_natCast, Int.toNat_natCast]
    rw [ZMod.val_natCast_of_lt (by simpa using hGp)]

theorem curveFor_base {h : HashAlg} {C : NistCurve} (hC : CurveFor h C) :
    0 ≤ C.G.1 ∧ C.G.1 < C.p ∧ C.G.1.toNat % C.N ≠ 0 := by
  have h1 : nistCurve 256 = .ok P256 := by decide +kernel
  have h2 : nistCurve 384 = .ok P384 := by decide +kernel
  have h3 : nistCurve 521 = .ok P521 := by decide +kernel
  cases h <;> simp only [CurveFor, h1, h2, h3, Except.ok.injEq] at hC <;> subst hC <;> decide +kernel

/-- Loading a JWK whose type is spelled "ec" succeeds, whatever the other members are, and gives a
key without key material that is nevertheless used for ECDSA. -/
theorem C77_loads (E : Env) (d : PyDict) (hk : PyDict.get? d "kty" = some (.str "ec"))
    (hs : PyDict.get? d "self" = none) (hkey : PyDict.get? d "key" = none) :
    ∃ k, keyrep E d = .ok k ∧ k.kty = .str "ec" ∧ PubPoint k none ∧
      k.alg = strAttr (kwGet (d.map fun kv => (kv.1, asBytes kv.2)) "alg" (.str "")) ∧
      k.kid = strAttr (kwGet (d.map fun kv => (kv.1, asBytes kv.2)) "kid" (.str "")) := by
  have hmap : ∀ n, PyDict.get? (d.map fun kv => (kv.1, asBytes kv.2)) n =
      (PyDict.get? d n).map asBytes := by
    intro n
    unfold PyDict.get?
    clear hk hs hkey
    induction d with
    | nil => rfl
    | cons x l ih =>
      obtain ⟨a, v⟩ := x
      simp only [List.map_cons, List.lookup_cons]
      cases h : n == a <;> simp [ih]
  refine ⟨keyCommon "" keyArgs (d.map fun kv => (kv.1, asBytes kv.2))
    (.val (kwGet (d.map fun kv => (kv.1, asBytes kv.2)) "key" .none)) .plain, ?_, ?_, ?_, rfl, rfl⟩
  · have h1 : (PyVal.str "ec").pyEq (.str "RSA") = false := by decide
    have h2 : (PyVal.str "ec").pyEq (.str "oct") = false := by decide
    have h3 : (PyVal.str "ec").pyEq (.str "EC") = false := by decide
    simp [keyrep, hk, h1, h2, h3, plainKeyNew, PyDict.has, hmap, hs]
  · simp only [keyCommon, kwGet, hmap, hk, Option.map_some, Option.getD_some]
    decide
  · refine .inr ⟨?_, .none, ?_, .inl ⟨rfl, rfl⟩⟩
    · rintro ⟨_, _, _, _, _, h⟩
      simp [keyCommon] at h
    · simp [keyCommon, kwGet, hmap, hkey]

/-- Anyone can then forge ES256/384/512 signatures: for every header and payload text whose digest
(shortened to the group order) is neither 0 nor the order, a signature computable from public data
alone is accepted. -/
theorem C77_forgery (E : Env) (k : Key) (hkty : k.kty = .str "ec") (hP : PubPoint k none)
    (halg : k.alg.truthy = false) (s0 s1 : Bytes) (hd0 : (46 : UInt8) ∉ s0) (hd1 : (46 : UInt8) ∉ s1)
    (hb p : Bytes) (hs : String) (hdr : PyDict) (h0 : b64d s0 = .ok hb) (hu : utf8Decode hb = .ok hs)
    (hj : jsonLoads hs = .ok (.dict hdr)) (h1 : b64d s1 = .ok p) (name : String) (h : HashAlg)
    (hsup : SupportedAlg name (.es h)) (hal : PyDict.get? hdr "alg" = some (.str name))
    (hkid : PyDict.get? hdr "kid" = none) (C : NistCurve) (hC : CurveFor h C) (m : PyVal)
    (hM : Message E.jsonBytes hdr p m)
    (he : 0 < shrink C.N (bytesToNat (E.H.hash h (s0 ++ 46 :: s1))))
    (heN : shrink C.N (bytesToNat (E.H.hash h (s0 ++ 46 :: s1))) < C.N) :
    (({} : Jwx).verifyVerbose E (s0 ++ 46 :: s1 ++ 46 ::
      b64e (forgedSig C (shrink C.N (bytesToNat (E.H.hash h (s0 ++ 46 :: s1)))))) [k] false .none).1 =
      .ok (m, some k) := by
  have hb := curveFor_base hC
  have hacc := infinity_accepts (curveFor_sound hC) hb.1 hb.2.1 hb.2.2 _ he heN
  refine (verifyVerbose_iff _ _ _ _ _ _ _ _).mpr ⟨s0, s1, hdr, p, _, name, .es h, .none, [k],
    ⟨⟨_, rfl, C01_roundtrip _, b64e_no_dot _⟩, ⟨hd0, hd1⟩, ⟨_, hs, h0, hu, hj⟩, h1⟩,
    hal, hsup, by simp [PyDict.get?], by simp [none_truthy], .inl ⟨by simp, rfl⟩,
    .inr (.inr ⟨by simp [PyDict.get?], hkid, rfl⟩),
    ⟨[], [], rfl, ⟨.inl hkty, by simp [none_truthy], by simp [halg]⟩, ⟨C, none, hC, hP, hacc⟩,
      by simp⟩, hM⟩

/-- A JWK with everything right except the case of `kty`. -/
example : ∃ k sig, keyrep toyEnv [("kty", .str "ec"), ("crv", .str "P-256"), ("x", .str "AQ"),
      ("y", .str "AQ")] = .ok k ∧
    (({} : Jwx).verifyVerbose toyEnv (ascii "eyJhbGciOiJFUzI1NiJ9.e30." ++ b64e sig)
      [k] false .none).1 = .ok (.dict [], some k) := by
  obtain ⟨k, hk, hkty, hP, halg, -⟩ := C77_loads toyEnv [("kty", .str "ec"), ("crv", .str "P-256"),
    ("x", .str "AQ"), ("y", .str "AQ")] rfl rfl rfl
  have hn : nistCurve 256 = .ok P256 := by decide +kernel
  have hh : bytesToNat (toyEnv.H.hash .sha256 (ascii "eyJhbGciOiJFUzI1NiJ9" ++ 46 :: ascii "e30")) <
      P256.N ∧ 0 < bytesToNat (toyEnv.H.hash .sha256
        (ascii "eyJhbGciOiJFUzI1NiJ9" ++ 46 :: ascii "e30")) := by decide +kernel
  have hsh := hh.1
  refine ⟨k, forgedSig P256 (shrink P256.N (bytesToNat (toyEnv.H.hash .sha256
    (ascii "eyJhbGciOiJFUzI1NiJ9" ++ 46 :: ascii "e30")))), hk, ?_⟩
  rw [show ascii "eyJhbGciOiJFUzI1NiJ9.e30." = ascii "eyJhbGciOiJFUzI1NiJ9" ++ 46 :: ascii "e30" ++ [46]
    by decide, List.append_assoc _ [46]]
  refine C77_forgery toyEnv k hkty hP (by rw [halg]; decide) (ascii "eyJhbGciOiJFUzI1NiJ9")
    (ascii "e30") (by decide) (by decide) (ascii "{\"alg\":\"ES256\"}") (ascii "{}")
    "{\"alg\":\"ES256\"}" [("alg", .str "ES256")] (by decide +kernel) (by decide +kernel)
    (by decide +kernel) (by decide +kernel) "ES256" .sha256 .ES256 rfl rfl P256 hn (.dict []) ?_ ?_ ?_
  · exact ⟨.str "{}", .inl ⟨"{}", by decide, rfl⟩, .inr ⟨.inl rfl, .inl (.inl ⟨"{}", rfl, by decide +kernel⟩)⟩⟩
  · rw [shrink, if_neg (by omega)]; exact hh.2
  · rw [shrink, if_neg (by omega)]; exact hh.1

end Verif
