import Verif.Proofs.JwsJson
import Verif.Props.JwsSign
/-
C23-C25, C27: JSON serialization and classification of JWS tokens.
-/

namespace Verif
open Spec

/-! ### C23 -/

/-- Exactly when `verify_json` returns, and what: every entry verifies over the same payload text and
they agree.  The object it is called on does not matter. -/
theorem C23_exact (E : Env) (o : Jwx) (jws : String) (keys : List Key) (an : Bool)
    (sigalg m : PyVal) :
    (o.verifyJson E jws keys an sigalg).1 = .ok m ↔
    ∃ d p l ms, jsonLoads jws = .ok (.dict d) ∧ PyDict.get? d "payload" = some p ∧ Listed d l ∧
      List.Forall₂ (EntryVerified E keys an sigalg p) l ms ∧ Combined ms m := by
  have key : ∀ p l, (o.verifyEntries E p keys an sigalg .none l).1 = .ok m ↔
      ∃ ms, List.Forall₂ (EntryVerified E keys an sigalg p) l ms ∧ Combined ms m := by
    intro p l
    rw [verifyEntries_iff]
    simp
  constructor
  · intro h
    unfold Jwx.verifyJson at h
    split at h
    · simp at h
    rename_i p l hp
    unfold jsonParts at hp
    split at hp
    swap
    · simp at hp
    swap
    · simp at hp
    rename_i d hd
    split at hp
    · simp at hp
    rename_i p' hp'
    rcases hse : signEntries d with e | l'
    · rw [hse] at hp; simp [Except.map] at hp
    rw [hse] at hp
    simp only [Except.map, Except.ok.injEq, Prod.mk.injEq] at hp
    obtain ⟨rfl, rfl⟩ := hp
    obtain ⟨ms, hf, hc⟩ := (key _ _).mp h
    obtain ⟨l, hl, hf⟩ := (signEntries_iff d ms).mp ⟨l', hse, hf⟩
    exact ⟨d, p', l, ms, hd, hp', hl, hf, hc⟩
  · rintro ⟨d, p, l, ms, hd, hp, hl, hf, hc⟩
    obtain ⟨l', hse, hf⟩ := (signEntries_iff d ms).mpr ⟨l, hl, hf⟩
    unfold Jwx.verifyJson jsonParts
    simp only [hd, hp, hse, Except.map]
    exact (key _ _).mpr ⟨ms, hf, hc⟩

/-- Without `allow_none` every entry carries a signature that some key accepts, over the protected
header of that entry and the common payload. -/
theorem C23_all_signed (E : Env) (o : Jwx) (jws : String) (keys : List Key) (sigalg m : PyVal)
    (h : (o.verifyJson E jws keys false sigalg).1 = .ok m) :
    ∃ d l, jsonLoads jws = .ok (.dict d) ∧ Listed d l ∧
      ∀ s ∈ l, ∃ ph pl sg unprot sig name a k, PyDict.get? d "payload" = some (.str pl) ∧
        SigEntry s ph sg unprot ∧ b64d (utf8Encode sg) = .ok sig ∧ SupportedAlg name a ∧
        TypeFor a k.kty ∧ Accepts E k (utf8Encode ph ++ 46 :: utf8Encode pl) sig a ∧
        (keys ≠ [] → k ∈ keys) := by
  obtain ⟨d, p, l, ms, hd, hp, hl, hf, -⟩ := (C23_exact _ _ _ _ _ _ _).mp h
  refine ⟨d, l, hd, hl, ?_⟩
  intro s hs
  obtain ⟨m', hE⟩ : ∃ m', EntryVerified E keys false sigalg p s m' := by
    clear h hl
    induction hf with
    | nil => simp at hs
    | cons h1 h2 ih =>
      rcases List.mem_cons.mp hs with rfl | hs
      · exact ⟨_, h1⟩
      · exact ih hs
  obtain ⟨ph, pl, sg, prot, unprot, pb, sig, hse, rfl, htok, -, -, -, hc⟩ := hE
  rcases hc with ⟨h, -⟩ | ⟨name, a, lk, k, -, hsup, -, hkeys, pre, post, hlk, hsu, hacc, -⟩
  · simp at h
  refine ⟨ph, pl, sg, unprot, sig, name, a, k, hp, hse, ?_, hsup, hsu.1, hacc, ?_⟩
  · obtain ⟨⟨s2, ht, h2, -⟩, -, -, -⟩ := htok
    have := List.append_cancel_left ht
    simp only [List.cons.injEq, true_and] at this
    rw [this]; exact h2
  · intro hne
    rcases hkeys with ⟨-, rfl⟩ | ⟨h, -⟩
    · rw [hlk]; simp
    · exact absurd h hne

/-- The hole: a token without any signature is accepted, with result `None`, whatever the payload and
the keys. -/
theorem C23_empty (E : Env) (o : Jwx) (keys : List Key) (an : Bool) (sigalg : PyVal) (jws : String)
    (d : PyDict) (hd : jsonLoads jws = .ok (.dict d)) (p : PyVal)
    (hp : PyDict.get? d "payload" = some p) (hs : PyDict.get? d "signatures" = some (.list [])) :
    (o.verifyJson E jws keys an sigalg).1 = .ok .none :=
  (C23_exact _ _ _ _ _ _ _).mpr ⟨d, p, [], [], hd, hp, .inl hs, .nil, .inl ⟨by simp, rfl⟩⟩

example (E : Env) (o : Jwx) (keys : List Key) :
    (o.verifyJson E "{\"payload\": \"anything\", \"signatures\": []}" keys false .none).1 =
      .ok .none :=
  C23_empty E o keys false .none _ [("payload", .str "anything"), ("signatures", .list [])]
    (by decide +kernel) (.str "anything") rfl rfl

/-- A token with two signatures, the second flattened out; both forms are accepted. -/
def exJson : String :=
  "{\"payload\": \"e30\", \"signatures\": [{\"protected\": \"eyJhbGciOiJIUzI1NiJ9\", " ++
  "\"signature\": \"a2V5SmhiR2NpT2lKSVV6STFOaUo5LmUzMAAAAAAAAAA\"}, " ++
  "{\"protected\": \"eyJhbGciOiJIUzI1NiJ9\", \"header\": {\"alg\": \"none\"}, " ++
  "\"signature\": \"a2V5SmhiR2NpT2lKSVV6STFOaUo5LmUzMAAAAAAAAAA\"}]}"
@[inherit_doc exJson]
def exFlat : String :=
  "{\"payload\": \"e30\", \"protected\": \"eyJhbGciOiJIUzI1NiJ9\", " ++
  "\"signature\": \"a2V5SmhiR2NpT2lKSVV6STFOaUo5LmUzMAAAAAAAAAA\"}"

theorem exJson_ok : (({} : Jwx).verifyJson toyEnv exJson [exKey] false .none).1 = .ok (.dict []) := by
  decide +kernel
theorem exFlat_ok : (({} : Jwx).verifyJson toyEnv exFlat [exKey] false .none).1 = .ok (.dict []) := by
  decide +kernel

example := C23_all_signed _ _ _ _ _ _ exJson_ok
example := C23_all_signed _ _ _ _ _ _ exFlat_ok

/-! ### C25 -/

/-- Compact form: with no key object in the constructor, only the caller's keys verify; without any
key nothing does. -/
theorem C25_compact (E : Env) (o : Jwx) (ho : o.jwk = none) (jws : Bytes) (keys : List Key) (an : Bool)
    (sigalg m : PyVal) (k : Key) (h : (o.verifyVerbose E jws keys an sigalg).1 = .ok (m, some k)) :
    k ∈ keys := by
  obtain ⟨_, _, _, _, _, _, _, _, l, -, -, -, -, -, hl, -, ⟨pre, post, rfl, -⟩, -⟩ :=
    (verifyVerbose_iff _ _ _ _ _ _ _ _).mp h
  rcases hl with ⟨-, rfl⟩ | ⟨-, k', hk', -⟩
  · simp
  · rw [ho] at hk'; simp at hk'

/-- No verification, successful or not, gives the object a key to trust, so this goes for any sequence
of verifications on one object. -/
theorem C25_compact_state (E : Env) (o : Jwx) (jws : Bytes) (keys : List Key) (an : Bool)
    (sigalg : PyVal) : (o.verifyCompact E jws keys an sigalg).2.jwk = o.jwk := by
  unfold Jwx.verifyCompact Jwx.verifyVerbose
  simp only
  repeat' split
  all_goals rfl

/-- A history of verifications on one object. -/
def Jwx.verifyAll (E : Env) (o : Jwx) : List (Bytes × List Key × Bool × PyVal) → Jwx
  | [] => o
  | (t, ks, an, sa) :: l => ((o.verifyCompact E t ks an sa).2).verifyAll E l

theorem C25_history (E : Env) (calls : List (Bytes × List Key × Bool × PyVal)) (o : Jwx)
    (ho : o.jwk = none) (jws : Bytes) (keys : List Key) (an : Bool) (sigalg m : PyVal) (k : Key)
    (h : ((o.verifyAll E calls).verifyVerbose E jws keys an sigalg).1 = .ok (m, some k)) :
    k ∈ keys := by
  refine C25_compact E _ ?_ jws keys an sigalg m k h
  clear h
  induction calls generalizing o with
  | nil => exact ho
  | cons c l ih =>
    obtain ⟨t, ks, an', sa⟩ := c
    exact ih _ (by rw [C25_compact_state]; exact ho)

example := C25_history toyEnv [(exToken, [], false, .none)] {} rfl exToken [exKey] false .none
  (.dict []) exKey (by decide +kernel)

theorem message_of_text {jb : Bytes → PyM PyVal} {hdr : PyDict} {s : String} {m : PyVal}
    (h : TextMessage s m) (hc : CtyMayBeJson hdr) : Message jb hdr (utf8Encode s) m := by
  refine ⟨.str s, .inl ⟨s, rfl, rfl⟩, .inr ⟨hc, ?_⟩⟩
  rcases h with h | ⟨h, rfl⟩
  · exact .inl (.inl ⟨s, rfl, h⟩)
  · cases hl : jsonLoads s with
    | ok v => exact absurd hl (h v)
    | error e => exact .inr ⟨e, .inl ⟨s, rfl, hl⟩, by rw [jsonLoads_error hl]; rfl, rfl⟩

theorem keyrep_oct (E : Env) (secret : Bytes) (hs : secret ≠ []) (k : String)
    (hk : utf8Encode k = b64e secret) :
    ∃ key, keyrep E [("kty", .str "oct"), ("k", .str k)] = .ok key ∧ key.kty = .str "oct" ∧
      key.alg = .str "" ∧ key.kid = .str "" ∧ key.key = .val (.bytes secret) ∧ ¬ IsEc key := by
  have hne : b64e secret ≠ [] := by
    intro h
    have := C01_roundtrip secret
    rw [h, b64d_nil] at this
    exact hs (Except.ok.inj this).symm
  have htr : (PyVal.bytes (b64e secret)).truthy = true := by simpa [PyVal.truthy] using hne
  refine ⟨{ keyCommon "oct" symArgs [("kty", .bytes (utf8Encode "oct")), ("k", .bytes (b64e secret))]
    (.val .none) (.sym (.bytes (b64e secret))) with key := .val (.bytes secret) }, ?_, ?_, ?_, ?_, ?_, ?_⟩
  · simp [keyrep, kwGet, PyDict.get?, PyVal.pyEq, symKeyNew, PyDict.has, asBytes, hk, htr, pyBytes,
      C01_roundtrip, Bind.bind, Except.bind, List.lookup_cons, none_truthy]
    rfl
  · simp only [keyCommon, kwGet, PyDict.get?, List.lookup_cons, BEq.rfl, Option.getD_some, strAttr]
    rw [asUnicode_encode]
  · rfl
  · rfl
  · rfl
  · rintro ⟨_, _, _, _, _, h⟩
    simp [keyCommon] at h

/-- The hole: called without keys, `verify_json` accepts any payload signed with a key that the
attacker chose and put into the token. -/
theorem C25_embedded_key_trusted (E : Env) (o : Jwx) (payload : String) (secret : Bytes)
    (hs : secret ≠ []) (m : PyVal) (hm : TextMessage payload m) :
    ∃ t d pl, jsonLoads t = .ok (.dict d) ∧ PyDict.get? d "payload" = some (.str pl) ∧
      utf8Encode pl = b64e (utf8Encode payload) ∧ (o.verifyJson E t [] false .none).1 = .ok m := by
  obtain ⟨kt, hkt⟩ := asciiDecode_of_lt (b64e_ascii secret)
  have hkt := (asciiEncode_utf8 (asciiEncode_decode hkt)).1
  obtain ⟨pl, hpl⟩ := asciiDecode_of_lt (b64e_ascii (utf8Encode payload))
  have hpl := (asciiEncode_utf8 (asciiEncode_decode hpl)).1
  set prot : PyDict := [("alg", .str "HS256"), ("jwk", .dict [("kty", .str "oct"), ("k", .str kt)])]
    with hprot
  obtain ⟨key, hkey, h1, h2, h3, h4, h5⟩ := keyrep_oct E secret hs kt hkt
  obtain ⟨hs', hdump, hload⟩ := jsonLoads_dumps (.dict prot) (by
    simp [hprot, PyVal.jsonable, PyVal.jsonableD])
  obtain ⟨ph, hph⟩ := asciiDecode_of_lt (b64e_ascii (utf8Encode hs'))
  have hph := (asciiEncode_utf8 (asciiEncode_decode hph)).1
  set sig := E.H.hmac .sha256 secret (utf8Encode ph ++ 46 :: utf8Encode pl) with hsig
  obtain ⟨sg, hsg⟩ := asciiDecode_of_lt (b64e_ascii sig)
  have hsg := (asciiEncode_utf8 (asciiEncode_decode hsg)).1
  set d : PyDict := [("payload", .str pl), ("protected", .str ph), ("signature", .str sg)] with hd
  obtain ⟨t, -, ht⟩ := jsonLoads_dumps (.dict d) (by simp [hd, PyVal.jsonable, PyVal.jsonableD])
  refine ⟨t, d, pl, ht, rfl, hpl, ?_⟩
  refine (C23_exact _ _ _ _ _ _ _).mpr ⟨d, .str pl, [.dict d], [m], ht, rfl, .inr (.inr ⟨rfl, rfl⟩),
    .cons ?_ .nil, ?_⟩
  · refine ⟨ph, pl, sg, prot, [], utf8Encode payload, sig, ⟨d, rfl, rfl, rfl, .inr ⟨rfl, rfl⟩⟩, rfl,
      ⟨⟨_, rfl, by rw [hsg]; exact C01_roundtrip _, by rw [hsg]; exact b64e_no_dot _⟩,
        ⟨by rw [hph]; exact b64e_no_dot _, by rw [hpl]; exact b64e_no_dot _⟩,
        ⟨utf8Encode hs', hs', by rw [hph]; exact C01_roundtrip _, utf8Decode_encode _, hload⟩,
        by rw [hpl]; exact C01_roundtrip _⟩, ?_, rfl, ?_, .inr ⟨"HS256", .hs .sha256, [key], key, rfl,
        .HS256, by simp [none_truthy], .inr ⟨rfl, _, key, rfl, .dict _ _ hkey, rfl⟩, [], [], rfl, ?_, ?_,
        by simp⟩⟩
    · exact message_of_text hm (.inl rfl)
    · intro v hv
      have : v = .dict [("kty", .str "oct"), ("k", .str kt)] := by
        have : Merged prot [] "jwk" = some (.dict [("kty", .str "oct"), ("k", .str kt)]) := rfl
        rw [this] at hv
        exact (Option.some.inj hv).symm
      subst this
      exact ⟨_, .dict _ _ hkey⟩
    · refine ⟨.inl h1, ?_, ?_⟩
      · intro h
        have he : (Merged prot [] "kid").getD .none = .none := rfl
        rw [he, none_truthy] at h
        simp at h
      · rw [h2]; intro h; exact absurd h (by decide)
    · exact ⟨h5, secret, h4, hsig⟩
  · by_cases hmn : m = .none
    · exact .inl ⟨by simpa using hmn, hmn⟩
    · exact .inr ⟨[], [], rfl, hmn, by simp, by simp⟩

example : ∃ t d pl, jsonLoads t = .ok (.dict d) ∧ PyDict.get? d "payload" = some (.str pl) ∧
    utf8Encode pl = b64e (utf8Encode "{}") ∧
    (({} : Jwx).verifyJson toyEnv t [] false .none).1 = .ok (.dict []) :=
  C25_embedded_key_trusted toyEnv {} "{}" [1] (by simp) _ (.inl (by decide +kernel))

/-! ### C27 -/

/-- A JSON object is taken for a JWS exactly if it has a payload and a signature member of one of the
two forms. -/
theorem C27_json (o : Jwx) (s : String) (d : PyDict) (hd : jsonLoads s = .ok (.dict d)) (r : PyM Bool) :
    (o.isJws s).1 = r ↔ ∃ b, r = .ok b ∧ (b = true ↔
      (∃ p, PyDict.get? d "payload" = some p) ∧
      ((∃ l, PyDict.get? d "signatures" = some l) ∨ ∃ g, PyDict.get? d "signature" = some g)) := by
  simp only [Jwx.isJws, hd, PyDict.has]
  rcases PyDict.get? d "payload" with _ | p <;> rcases PyDict.get? d "signatures" with _ | l <;>
    rcases PyDict.get? d "signature" with _ | g <;> simp [eq_comm]

/-- Text that is JSON but no object is an error. -/
theorem C27_json_other (o : Jwx) (s : String) (v : PyVal) (hv : jsonLoads s = .ok v)
    (hd : ∀ d, v ≠ .dict d) : (o.isJws s).1 = .error .attributeError := by
  unfold Jwx.isJws
  rw [hv]
  cases v <;> first | rfl | exact absurd rfl (hd _)

/-- Other text is taken for a JWS exactly if it is a dotted sequence of two or more base64url segments,
the first of which is a JSON object whose `alg` is one of the twelve names, "none" or null. -/
theorem C27_compact (o : Jwx) (s : String) (hj : ∀ v, jsonLoads s ≠ .ok v) :
    (o.isJws s).1 = .ok true ↔
      ∃ segs parts p0 rest hs hdr alg, (46 : UInt8) ∈ utf8Encode s ∧ Segments (utf8Encode s) segs ∧
        List.Forall₂ (fun g p => b64d g = .ok p) segs parts ∧ parts = p0 :: rest ∧
        utf8Decode p0 = .ok hs ∧ jsonLoads hs = .ok (.dict hdr) ∧
        PyDict.get? hdr "alg" = some alg ∧
        (alg = .none ∨ alg = .str "none" ∨ ∃ name a, alg = .str name ∧ SupportedAlg name a) := by
  obtain ⟨e, he⟩ : ∃ e, jsonLoads s = .error e := by
    cases h : jsonLoads s with
    | error e => exact ⟨e, rfl⟩
    | ok v => exact absurd h (hj v)
  have hin : ∀ alg, inSignerAlgs alg = .ok true ↔
      (alg = .str "none" ∨ ∃ name a, alg = .str name ∧ SupportedAlg name a) := by
    intro alg
    constructor
    · intro h
      unfold inSignerAlgs at h
      split at h
      · rename_i x
        simp only [Except.ok.injEq, Bool.or_eq_true, decide_eq_true_eq] at h
        rcases h with rfl | h
        · exact .inl rfl
        · obtain ⟨a, ha⟩ := Option.isSome_iff_exists.mp h
          by_cases hx : x = "none"
          · subst hx; exact .inl rfl
          · obtain ⟨n, hn, hsup⟩ := (signerOf_iff (.str x) a).mp (by simp [signerOf, hx, ha])
            exact .inr ⟨n, a, hn, hsup⟩
      · simp at h
      · simp at h
      · simp at h
    · rintro (rfl | ⟨name, a, rfl, hsup⟩)
      · rfl
      · have := (signerOf_iff (.str name) a).mpr ⟨name, rfl, hsup⟩
        by_cases hx : name = "none"
        · simp [signerOf, hx] at this
        · simp only [signerOf, hx, if_false, Option.map_eq_some_iff, Option.some.injEq,
            exists_eq_right] at this
          simp [inSignerAlgs, this]
  have hun : ∀ hdr : PyVal, (∃ j, Jwt.unpack (utf8Encode s) = .ok j ∧ j.headers = hdr) ↔
      ∃ segs parts p0 rest hs, (46 : UInt8) ∈ utf8Encode s ∧ Segments (utf8Encode s) segs ∧
        List.Forall₂ (fun g p => b64d g = .ok p) segs parts ∧ parts = p0 :: rest ∧
        utf8Decode p0 = .ok hs ∧ jsonLoads hs = .ok hdr := by
    intro hdr
    constructor
    · rintro ⟨j, hj, rfl⟩
      obtain ⟨h1, h2, h3, p0, rest, hs, h4, h5, h6⟩ := (C09_unpack_iff _ _).mp hj
      exact ⟨_, _, p0, rest, hs, h1, h2, h3, h4, h5, h6⟩
    · rintro ⟨segs, parts, p0, rest, hs, h1, h2, h3, h4, h5, h6⟩
      exact ⟨⟨hdr, segs, parts⟩, (C09_unpack_iff _ _).mpr ⟨h1, h2, h3, p0, rest, hs, h4, h5, h6⟩, rfl⟩
  have hmain : (o.isJws s).1 = .ok true ↔ ∃ hdr alg,
      (∃ j, Jwt.unpack (utf8Encode s) = .ok j ∧ j.headers = .dict hdr) ∧
      PyDict.get? hdr "alg" = some alg ∧
        (alg = .none ∨ alg = .str "none" ∨ ∃ name a, alg = .str name ∧ SupportedAlg name a) := by
    unfold Jwx.isJws
    rw [he]
    simp only
    unfold Jwx.isCompactJws
    cases hu : Jwt.unpack (utf8Encode s) with
    | error e => simp
    | ok j =>
      simp only [Except.ok.injEq, exists_eq_left']
      obtain ⟨hd, b, p⟩ := j
      cases hd
      case dict d =>
        simp only [PyVal.contains, PyDict.has, PyVal.dict.injEq]
        rcases ha : PyDict.get? d "alg" with _ | alg
        · constructor
          · intro h; simp at h
          · rintro ⟨hdr, alg, rfl, h, -⟩; rw [ha] at h; simp at h
        · simp only [Option.isSome_some, kwGet, ha, Option.getD_some]
          have hr : ((∃ hdr alg', d = hdr ∧ PyDict.get? hdr "alg" = some alg' ∧
              (alg' = .none ∨ alg' = .str "none" ∨ ∃ name a, alg' = .str name ∧ SupportedAlg name a)) ↔
              (alg = .none ∨ inSignerAlgs alg = .ok true)) := by
            rw [hin]
            constructor
            · rintro ⟨hdr, alg', rfl, h, h'⟩
              rw [ha] at h; cases h; exact h'
            · intro h; exact ⟨d, alg, rfl, ha, h⟩
          rw [hr]
          by_cases hn : alg = .none
          · subst hn
            simp [PyDict.get?_set, inSignerAlgs]
          · simp only [hn, if_false, ha, Option.getD_some, false_or]
            rcases inSignerAlgs alg with e | b
            · simp
            · cases b <;> simp
      all_goals
        simp only [PyVal.contains]
        simp
        try (split <;> simp_all)
  rw [hmain]
  simp only [hun]
  constructor
  · rintro ⟨hdr, alg, ⟨segs, parts, p0, rest, hs, h⟩, h'⟩
    exact ⟨segs, parts, p0, rest, hs, hdr, alg, h.1, h.2.1, h.2.2.1, h.2.2.2.1, h.2.2.2.2.1,
      h.2.2.2.2.2, h'⟩
  · rintro ⟨segs, parts, p0, rest, hs, hdr, alg, h1, h2, h3, h4, h5, h6, h'⟩
    exact ⟨hdr, alg, ⟨segs, parts, p0, rest, hs, h1, h2, h3, h4, h5, h6⟩, h'⟩

/-- `factory` gives an object exactly if `is_jws` says yes. -/
theorem C27_factory (s : String) :
    (∃ o, jwsFactory s = .ok (some o)) ↔ (({} : Jwx).isJws s).1 = .ok true := by
  unfold jwsFactory
  generalize Jwx.isJws {} s = r
  obtain ⟨r, o⟩ := r
  rcases r with e | b
  · simp
  · cases b <;> simp

example : (({} : Jwx).isJws "eyJhbGciOiJIUzI1NiJ9.e30").1 = .ok true ∧
    (({} : Jwx).isJws "eyJhbGciOiJkaXIifQ.e30.e30").1 = .ok false ∧
    (({} : Jwx).isJws exJson).1 = .ok true ∧ (({} : Jwx).isJws "7").1 = .error .attributeError := by
  decide +kernel

/-! ### C24 -/

theorem new_state {E : Env} {msg : PyVal} {kw : PyDict} {j : Jwx} {alg : PyVal}
    (ha : PyDict.get? kw "alg" = some alg) (h : Jws.new E msg kw = .ok j) :
    PyDict.get? kw "self" = none ∧ PyDict.get? j.dict "alg" = some alg ∧
    PyDict.get? j.dict "typ" = PyDict.get? kw "typ" ∧ j.msg = msg ∧
    ∀ v, PyDict.get? kw "jwk" = some v → ∃ k, EmbeddedKey E v k := by
  unfold Jws.new at h
  split at h
  · simp at h
  rename_i hs
  have hself : PyDict.get? kw "self" = none := by
    rcases hx : PyDict.get? kw "self" with _ | v
    · rfl
    · simp [PyDict.has, hx] at hs
  have hne : (stripInit kw).isEmpty = false := by
    have := get?_stripInit kw "alg" (by decide) (by decide)
    rw [ha] at this
    cases hs : stripInit kw with
    | nil => rw [hs] at this; simp [PyDict.get?] at this
    | cons _ _ => rfl
  have hA : PyDict.get? (jwsArgs2.foldl (initStep (stripInit kw))
      (jwsArgs1.foldl (initStep (stripInit kw)) [])) "alg" = some alg := by
    rw [get?_foldl_initStep _ _ (by decide) _ _ (by decide),
      show jwsArgs1 = ["alg"] ++ ["jku"] by rfl, List.foldl_append,
      get?_foldl_initStep _ _ (by decide) _ _ (by decide)]
    simp [initStep, get?_stripInit kw "alg" (by decide) (by decide), ha, PyDict.get?_set]
  have hK : PyDict.get? (jwsArgs2.foldl (initStep (stripInit kw))
      (jwsArgs1.foldl (initStep (stripInit kw)) [])) "typ" = PyDict.get? kw "typ" := by
    rw [show jwsArgs2 = ["x5u", "x5t", "x5c", "kid"] ++ (["typ"] ++ ["cty", "crit"]) by rfl,
      List.foldl_append, List.foldl_append, get?_foldl_initStep _ _ (by decide) _ _ (by decide)]
    have h0 := get?_foldl_initStep (stripInit kw) "typ" (by decide) ["x5u", "x5t", "x5c", "kid"]
      (jwsArgs1.foldl (initStep (stripInit kw)) []) (by decide)
    rw [get?_foldl_initStep _ _ (by decide) jwsArgs1 _ (by decide)] at h0
    simp only [List.foldl_cons, List.foldl_nil] at h0 ⊢
    unfold initStep at h0 ⊢
    rcases hk : PyDict.get? kw "typ" with _ | v
    · rw [← get?_stripInit kw "typ" (by decide) (by decide)] at hk
      simp only [hk]
      rw [if_neg (by decide)]
      simpa [PyDict.get?] using h0
    · rw [← get?_stripInit kw "typ" (by decide) (by decide)] at hk
      simp only [hk]
      rw [if_neg (by decide), PyDict.get?_set, if_pos rfl]
  refine ⟨hself, ?_⟩
  unfold Jwx.initBody at h
  simp only [hne, Bool.false_eq_true, if_false] at h
  rw [get?_stripInit kw "jwk" (by decide) (by decide)] at h
  rcases hj : PyDict.get? kw "jwk" with _ | v <;> simp only [hj] at h
  · simp only [Except.map, Except.ok.injEq] at h
    subst h
    exact ⟨hA, hK, rfl, by simp⟩
  · rcases hp : jwkParam E v with e | k <;> simp only [hp, Except.map, reduceCtorEq,
      Except.ok.injEq] at h
    subst h
    refine ⟨hA, hK, rfl, ?_⟩
    intro v' hv'
    cases hv'
    exact ⟨k, (jwkParam_iff E v k).mp hp⟩

theorem firstAccepting_of_mem {E : Env} {a : SigAlg} {name : String} {kid : PyVal} {inp sig : Bytes}
    {keys : List Key}
    (hsoft : ∀ x ∈ keys, Suitable a name kid x → ¬ Accepts E x inp sig a → SoftFail E a inp sig x)
    {k : Key} (hk : k ∈ keys) (hs : Suitable a name kid k) (hA : Accepts E k inp sig a) :
    ∃ k', FirstAccepting E a name kid inp sig keys k' := by
  induction keys with
  | nil => simp at hk
  | cons y l ih =>
    by_cases hy : Suitable a name kid y ∧ Accepts E y inp sig a
    · exact ⟨y, [], l, rfl, hy.1, hy.2, by simp⟩
    · have hk' : k ∈ l := by
        rcases List.mem_cons.mp hk with rfl | h
        · exact absurd ⟨hs, hA⟩ hy
        · exact h
      obtain ⟨k', pre, post, rfl, h1, h2, h3⟩ := ih (fun x hx => hsoft x (by simp [hx])) hk'
      refine ⟨k', y :: pre, post, rfl, h1, h2, ?_⟩
      intro x hx hsx
      rcases List.mem_cons.mp hx with rfl | hx
      · exact hsoft x (by simp) hsx (fun h => hy ⟨hsx, h⟩)
      · exact h3 x hx hsx

theorem split3_ok {t h x s : String} (hs : split3 t = .ok (h, x, s)) {a b c : Bytes}
    (ht : utf8Encode t = a ++ 46 :: b ++ 46 :: c) (ha : (46 : UInt8) ∉ a) (hb : (46 : UInt8) ∉ b)
    (hc : (46 : UInt8) ∉ c) : utf8Encode h = a ∧ utf8Encode s = c := by
  unfold split3 at hs
  simp only [Bind.bind] at hs
  obtain ⟨l, hl, hs⟩ := bind_ok_iff.mp hs
  have h1 := mapM_decode_encode hl
  rw [ht, List.append_assoc, List.cons_append, splitDot_append _ _ ha, splitDot_append _ _ hb,
    splitDot_seg _ hc] at h1
  split at hs
  · rename_i x y z
    simp only [Except.ok.injEq, Prod.mk.injEq] at hs
    obtain ⟨rfl, rfl, rfl⟩ := hs
    simp only [List.map_cons, List.map_nil, List.cons.injEq, and_true] at h1
    exact ⟨h1.1, h1.2.2⟩
  · simp at hs

theorem jsonable_get? {d : PyDict} {n : String} {v : PyVal} (hd : (PyVal.dict d).jsonable = true)
    (hv : PyDict.get? d n = some v) : v.jsonable = true := by
  simp only [PyVal.jsonable, Bool.and_eq_true] at hd
  have h2 := hd.2
  clear hd
  unfold PyDict.get? at hv
  induction d with
  | nil => simp at hv
  | cons x l ih =>
    obtain ⟨k, w⟩ := x
    simp only [PyVal.jsonableD, Bool.and_eq_true] at h2
    rw [List.lookup_cons] at hv
    split at hv
    · cases hv; exact h2.1
    · exact ih hv h2.2

/-- One entry made by `sign_json` verifies. -/
theorem entry_roundtrip {E : Env} (hR : E.R.Lawful) {o : Jwx} {msg : String} (hm : o.msg = .str msg)
    {keys : List Key} (hne : keys ≠ []) {p : PyDict} {u : PyVal} {name : String} {a : SigAlg}
    (hok : HeaderOk E o keys p u name a) {rnd : Nat} {e : PyDict}
    (h : o.createSignature E keys p u rnd = .ok e) {pl : String}
    (hpl : utf8Encode pl = b64e (utf8Encode msg)) {m : PyVal} (hM : TextMessage msg m) (an : Bool)
    {sigalg : PyVal} (hsa : sigalg.truthy = true → sigalg = .str name) :
    (∃ s h, e = [("signature", .str s)] ++ (if u.truthy then [("header", u)] else []) ++
      [("protected", .str h)]) ∧
    ∀ d, PyDict.get? d "protected" = PyDict.get? e "protected" →
      PyDict.get? d "signature" = PyDict.get? e "signature" →
      PyDict.get? d "header" = PyDict.get? e "header" →
      EntryVerified E keys an sigalg (.str pl) (.dict d) m := by
  unfold Jwx.createSignature at h
  simp only [Bind.bind] at h
  obtain ⟨alg, halg, ha1⟩ := bind_ok_iff.mp h
  obtain ⟨j, hj, ha2⟩ := bind_ok_iff.mp ha1
  obtain ⟨t, ht, ha3⟩ := bind_ok_iff.mp ha2
  obtain ⟨⟨h0, x, s⟩, hsp, ha4⟩ := bind_ok_iff.mp ha3
  clear h ha1 ha2 ha3
  rename' ha4 => h
  simp only [Except.ok.injEq] at h
  set ph := if PyDict.has p "alg" then p else PyDict.set p "alg" alg with hph
  have hoalg : PyDict.get? o.dict "alg" = some alg := by
    unfold Jwx.algAttr at halg
    split at halg
    · rename_i v hv; rw [hv]; rw [Except.ok.inj halg]
    · simp at halg
  have hpa : PyDict.get? ph "alg" = some (.str name) := by
    rcases hok.alg with h1 | ⟨h1, h2⟩
    · simp [hph, PyDict.has, h1]
    · rw [hoalg] at h2
      simp [hph, PyDict.has, h1, PyDict.get?_set, Option.some.inj h2]
  have hpo : ∀ n, n ≠ "alg" → PyDict.get? ph n = PyDict.get? p n := by
    intro n hn
    rw [hph]
    split
    · rfl
    · rw [PyDict.get?_set, if_neg hn]
  have hpj : (PyVal.dict ph).jsonable = true := by
    rw [hph]
    split
    · exact hok.json
    · rename_i hnh
      refine jsonable_set _ _ _ hok.json ?_
      have : PyDict.get? ph "alg" = some alg := by
        rw [hph, if_neg hnh, PyDict.get?_set, if_pos rfl]
      rw [hpa] at this
      rw [← Option.some.inj this]; rfl
  set pr := if p.isEmpty then [] else ph with hpr
  have hprj : (PyVal.dict pr).jsonable = true := by
    rw [hpr]; split
    · rfl
    · exact hpj
  have hpro : ∀ n, n ≠ "alg" → PyDict.get? pr n = PyDict.get? p n := by
    intro n hn
    rw [hpr]
    split
    · rename_i hp; rw [List.isEmpty_iff.mp hp]
    · exact hpo n hn
  obtain ⟨hself, hja, hjt, hjm, hjk⟩ := new_state hpa hj
  have hname : (PyVal.str name).truthy = true := by
    obtain ⟨-, hne, -⟩ := supported_alg2keytype hok.sup
    simp [PyVal.truthy, hne]
  obtain ⟨k, kid, hdr, pb, sig, s0, hkm, hss, htok, hspec, hPB, -, hacc⟩ := sign_core E hR j keys hne
    pr rnd t name a hok.sup (.inl ⟨hja, hname⟩) hprj (fun k hk => (hok.kids k hk).1)
    (by
      intro v hv
      rw [hjt] at hv
      exact jsonable_get? hpj hv)
    (by rw [hjm, hm]; trivial) hok.own ht
  rw [hjm, hm] at hPB
  obtain rfl : pb = utf8Encode msg := hPB
  obtain ⟨⟨s2, htt, hs2, hd2⟩, ⟨hd0, hd1⟩, hhdr, hpay⟩ := htok
  obtain ⟨e0, e2⟩ := split3_ok hsp htt hd0 hd1 hd2
  have hh0 : h0 ≠ "" := by
    rintro rfl
    obtain ⟨hb, hs', hb1, hb2, hb3⟩ := hhdr
    rw [← e0, show utf8Encode "" = [] by decide, b64d_nil] at hb1
    obtain rfl := Except.ok.inj hb1
    rw [show utf8Decode [] = .ok "" by decide] at hb2
    obtain rfl := Except.ok.inj hb2
    rw [show jsonLoads "" = .error .jsonDecodeError by decide] at hb3
    simp at hb3
  rw [if_neg hh0] at h
  subst h
  refine ⟨⟨s, h0, rfl⟩, ?_⟩
  intro d hg1 hg2 hg3
  set un : PyDict := if u.truthy then members u else [] with hun
  have hg1' : PyDict.get? d "protected" = some (.str h0) := by
    rw [hg1]
    by_cases hu : u.truthy = true <;> simp [hu, PyDict.get?, List.lookup_cons]
  have hg2' : PyDict.get? d "signature" = some (.str s) := by
    rw [hg2]
    simp [PyDict.get?]
  have hg3' : PyDict.get? d "header" = some (.dict un) ∨ (PyDict.get? d "header" = none ∧ un = []) := by
    rw [hg3]
    by_cases hu : u.truthy = true
    · rcases hok.unprot with h | ⟨ud, rfl, -⟩
      · rw [hu] at h; simp at h
      · left; simp [hu, PyDict.get?, List.lookup_cons, hun, members]
    · right; simp [hu, PyDict.get?, List.lookup_cons, hun]
  have hmerge : ∀ n, n ≠ "alg" → n ≠ "kid" → n ≠ "typ" →
      Merged hdr un n = (PyDict.get? p n).or (PyDict.get? un n) := by
    intro n h1 h2 h3
    unfold Merged
    rw [hspec.2.2.2 n h1 h2 h3, hpro n h1]
    rcases PyDict.get? p n with _ | v <;> rfl
  have hunp : ∀ v, PyDict.get? un "jwk" = some v → ∃ k, EmbeddedKey E v k := by
    intro v hv
    rcases hok.unprot with h | ⟨ud, rfl, -, -, h⟩
    · simp [hun, h, PyDict.get?] at hv
    · by_cases hu : (PyVal.dict ud).truthy = true
      · rw [hun, if_pos hu] at hv; exact h v hv
      · rw [hun, if_neg hu] at hv; simp [PyDict.get?] at hv
  have hunself : PyDict.get? un "self" = none := by
    rcases hok.unprot with h | ⟨ud, rfl, -, h, -⟩
    · simp [hun, h, PyDict.get?]
    · by_cases hu : (PyVal.dict ud).truthy = true
      · rw [hun, if_pos hu]; exact h
      · rw [hun, if_neg hu]; simp [PyDict.get?]
  have hunmem : ∀ n, PyDict.get? un n = PyDict.get? (members u) n := by
    intro n
    by_cases hu : u.truthy = true
    · rw [hun, if_pos hu]
    · rw [hun, if_neg hu]
      cases u <;> simp_all [members, PyVal.truthy]
  -- the key is wanted
  have hsuit : Suitable a name ((Merged hdr un "kid").getD .none) k := by
    refine ⟨hss.1.1, ?_, hss.1.2.2⟩
    intro hwt
    have hk2 := hspec.2.1
    simp only at hk2
    by_cases hkt : k.kid.truthy = true
    · rw [if_pos hkt] at hk2
      simp only [Merged, hk2, Option.getD_some]
      exact (hok.kids k hkm).2
    · exfalso
      rw [if_neg hkt, hpro _ (by decide)] at hk2
      rcases hok.kid k hkm with h | h
      · exact hkt h
      · have : Merged hdr un "kid" = Merged p (members u) "kid" := by
          unfold Merged
          rw [hk2, hunmem]
        rw [← this, hwt] at h
        simp at h
  obtain ⟨k', hfa⟩ := firstAccepting_of_mem (hok.soft _ _ _) hkm hsuit hacc
  refine ⟨h0, pl, s, hdr, un, utf8Encode msg, sig, ⟨d, rfl, hg1', hg2', hg3'⟩, rfl, ?_, ?_, ?_, ?_,
    .inr ⟨name, a, keys, k', hspec.1, hok.sup, hsa, .inl ⟨hne, rfl⟩, ?_⟩⟩
  · rw [e0, e2, hpl]
    exact ⟨⟨s2, rfl, hs2, hd2⟩, ⟨hd0, hd1⟩, hhdr, hpay⟩
  · refine message_of_text hM ?_
    have hc := hok.cty
    unfold CtyMayBeJson at hc ⊢
    rw [hspec.2.2.2 "cty" (by decide) (by decide) (by decide), hpro _ (by decide)]
    exact hc
  · rw [hmerge _ (by decide) (by decide) (by decide), hunself, ← hpo _ (by decide), hself]
    rfl
  · intro v hv
    rw [hmerge _ (by decide) (by decide) (by decide)] at hv
    rcases hpj' : PyDict.get? p "jwk" with _ | w
    · rw [hpj'] at hv; exact hunp v hv
    · rw [hpj'] at hv
      cases hv
      exact hjk v (by rw [hpo _ (by decide)]; exact hpj')
  · rw [e0, hpl]; exact hfa

theorem jsonableL_of {l : List PyVal} (h : ∀ x ∈ l, x.jsonable = true) : PyVal.jsonableL l = true := by
  induction l with
  | nil => rfl
  | cons x l ih =>
    simp only [PyVal.jsonableL, Bool.and_eq_true]
    exact ⟨h x (by simp), ih fun y hy => h y (by simp [hy])⟩

theorem combined_const {m : PyVal} (hm : m.pyEq m = true) {ms : List PyVal} (hne : ms ≠ [])
    (h : ∀ x ∈ ms, x = m) : Combined ms m := by
  by_cases hn : m = .none
  · subst hn; exact .inl ⟨h, rfl⟩
  · cases ms with
    | nil => exact absurd rfl hne
    | cons x l =>
      obtain rfl := h x (by simp)
      exact .inr ⟨[], l, rfl, hn, by simp, fun y hy => by rw [h y (by simp [hy])]; exact hm⟩

/-- Round trip of the JSON serialization, general and flattened, with any number of signatures: what
`sign_json` returns, `verify_json` accepts on any object with the same keys, and gives the payload
interpretation of the message. -/
theorem C24_roundtrip (E : Env) (hR : E.R.Lawful) (o : Jwx) (msg : String) (hm : o.msg = .str msg)
    (keys : List Key) (hne : keys ≠ []) (headers : Option (List (PyDict × PyVal))) (flatten : Bool)
    (rnds : Nat → Nat) (l : List (PyDict × PyVal)) (hl : HeaderPairs o headers l) (hlne : l ≠ [])
    (sigalg : PyVal)
    (hok : ∀ x ∈ l, ∃ name a, HeaderOk E o keys x.1 x.2 name a ∧
      (sigalg.truthy = true → sigalg = .str name))
    (m : PyVal) (hM : TextMessage msg m) (hmm : m.pyEq m = true) (t : String)
    (h : o.signJson E keys headers flatten rnds = .ok t) (o2 : Jwx) (an : Bool) :
    (o2.verifyJson E t keys an sigalg).1 = .ok m := by
  unfold Jwx.signJson at h
  simp only [Bind.bind] at h
  obtain ⟨pl, hpl0, h1⟩ := bind_ok_iff.mp h
  obtain ⟨hs, hhs, h2⟩ := bind_ok_iff.mp h1
  clear h h1
  have hpl : utf8Encode pl = b64e (utf8Encode msg) := by
    rw [hm] at hpl0
    exact (asciiEncode_utf8 (asciiEncode_decode hpl0)).1
  obtain rfl : hs = l := by
    rcases hl with rfl | ⟨rfl, alg, ha, rfl⟩
    · exact (Except.ok.inj hhs).symm
    · simp only [Jwx.headerList, Jwx.algAttr, ha, Bind.bind, Except.bind, Except.ok.injEq] at hhs
      exact hhs.symm
  clear hl hhs
  have hujson : ∀ x ∈ hs, x.2.truthy = true → x.2.jsonable = true := by
    intro x hx hu
    obtain ⟨_, _, hk, -⟩ := hok x hx
    rcases hk.unprot with h | ⟨d, h, h', -⟩
    · rw [hu] at h; simp at h
    · exact h'
  have hall : ∀ (hs : List (PyDict × PyVal)) (i : Nat) (r : List PyVal),
      (∀ x ∈ hs, ∃ name a, HeaderOk E o keys x.1 x.2 name a ∧
        (sigalg.truthy = true → sigalg = .str name)) →
      (∀ x ∈ hs, x.2.truthy = true → x.2.jsonable = true) →
      o.createAll E keys rnds i hs = .ok r →
      List.Forall₂ (EntryVerified E keys an sigalg (.str pl)) r (List.replicate hs.length m) ∧
      ∀ x ∈ r, x.jsonable = true := by
    intro hs
    induction hs with
    | nil =>
      intro i r _ _ h
      simp only [Jwx.createAll, Except.ok.injEq] at h
      subst h
      exact ⟨.nil, by simp⟩
    | cons x hs ih =>
      intro i r hok hj h
      obtain ⟨p, u⟩ := x
      simp only [Jwx.createAll, Bind.bind] at h
      obtain ⟨e, he, h'⟩ := bind_ok_iff.mp h
      obtain ⟨r', hr', h''⟩ := bind_ok_iff.mp h'
      obtain rfl := Except.ok.inj h''
      obtain ⟨ih1, ih2⟩ := ih (i + 1) r' (fun y hy => hok y (by simp [hy]))
        (fun y hy => hj y (by simp [hy])) hr'
      obtain ⟨name, a, hk, hsa⟩ := hok (p, u) (by simp)
      obtain ⟨⟨s, h0, hes⟩, hev⟩ := entry_roundtrip hR hm hne hk he hpl hM an hsa
      refine ⟨?_, ?_⟩
      · rw [List.length_cons, List.replicate_succ]
        exact .cons (hev e rfl rfl rfl) ih1
      · intro y hy
        rcases List.mem_cons.mp hy with rfl | hy
        · rw [hes]
          have := hj (p, u) (by simp)
          simp only at this
          by_cases hu : u.truthy = true
          · simp [hu, PyVal.jsonable, PyVal.jsonableD, this hu]
          · simp [hu, PyVal.jsonable, PyVal.jsonableD]
        · exact ih2 y hy
  rw [C23_exact]
  have hgen : ∀ r, o.createAll E keys rnds 0 hs = .ok r →
      jsonDumps (.dict [("payload", .str pl), ("signatures", .list r)]) = .ok t →
      ∃ d p l ms, jsonLoads t = .ok (.dict d) ∧ PyDict.get? d "payload" = some p ∧ Listed d l ∧
        List.Forall₂ (EntryVerified E keys an sigalg p) l ms ∧ Combined ms m := by
    intro r hr ht
    obtain ⟨hf, hj⟩ := hall hs 0 r hok hujson hr
    obtain ⟨t', ht', hlo⟩ := jsonLoads_dumps (.dict [("payload", .str pl), ("signatures", .list r)])
      (by simp [PyVal.jsonable, PyVal.jsonableD, jsonableL_of hj])
    rw [ht] at ht'
    obtain rfl := Except.ok.inj ht'
    refine ⟨_, .str pl, r, _, hlo, rfl, .inl rfl, hf, combined_const hmm ?_ ?_⟩
    · simpa using hlne
    · intro x hx; exact List.eq_of_mem_replicate hx
  split at h2
  · -- flattened
    rename_i p u
    obtain ⟨e, he, ht⟩ := bind_ok_iff.mp h2
    obtain ⟨name, a, hk, hsa⟩ := hok (p, u) (by simp)
    obtain ⟨⟨s, h0, hes⟩, hev⟩ := entry_roundtrip hR hm hne hk he hpl hM an hsa
    set d := PyDict.update [("payload", .str pl)] e with hd
    have hdd : d = ("payload", .str pl) :: e := by
      rw [hd, hes]
      by_cases hu : u.truthy = true <;> simp [hu, PyDict.update, PyDict.set]
    have hdj : (PyVal.dict d).jsonable = true := by
      rw [hdd, hes]
      have := hujson (p, u) (by simp)
      simp only at this
      by_cases hu : u.truthy = true
      · simp [hu, PyVal.jsonable, PyVal.jsonableD, this hu]
      · simp [hu, PyVal.jsonable, PyVal.jsonableD]
    obtain ⟨t', ht', hlo⟩ := jsonLoads_dumps (.dict d) hdj
    rw [ht] at ht'
    obtain rfl := Except.ok.inj ht'
    refine ⟨d, .str pl, [.dict d], [m], hlo, by rw [hdd]; rfl, .inr (.inr ⟨?_, rfl⟩), .cons ?_ .nil,
      combined_const hmm (by simp) (by simp)⟩
    · rw [hdd, hes]
      by_cases hu : u.truthy = true <;> simp [hu, PyDict.get?, List.lookup_cons]
    · refine hev d ?_ ?_ ?_ <;> rw [hdd] <;> rfl
  · obtain ⟨r, hr, ht⟩ := bind_ok_iff.mp h2
    exact hgen r hr ht

/-- With an empty list of headers nothing is signed and the message does not come back. -/
theorem C24_no_headers (E : Env) (o : Jwx) (msg : String) (hm : o.msg = .str msg) (keys : List Key)
    (flatten : Bool) (rnds : Nat → Nat) (o2 : Jwx) (keys2 : List Key) :
    ∃ t, o.signJson E keys (some []) flatten rnds = .ok t ∧
      (o2.verifyJson E t keys2 false .none).1 = .ok .none := by
  obtain ⟨pl, hpl⟩ := asciiDecode_of_lt (b64e_ascii (utf8Encode msg))
  obtain ⟨t, ht, hlo⟩ := jsonLoads_dumps (.dict [("payload", .str pl), ("signatures", .list [])]) rfl
  refine ⟨t, ?_, C23_empty E o2 keys2 false .none t _ hlo _ rfl rfl⟩
  unfold Jwx.signJson
  rw [hm]
  cases flatten <;>
    simp [b64eEncDec, hpl, Bind.bind, Except.bind, Jwx.headerList, Jwx.createAll, ht]

/-- Two signatures, one with an unprotected header. -/
example : ∃ t, ({ msg := .str "{}", dict := [("alg", .str "HS256")] } : Jwx).signJson toyEnv [exKey]
      (some [([("typ", .str "JWT")], .none), ([("alg", .str "HS512")], .dict [("x", .int 1)])]) false
      (fun _ => 0) = .ok t ∧
    (({} : Jwx).verifyJson toyEnv t [exKey] false .none).1 = .ok (.dict []) := by
  have hec : ¬ IsEc exKey := by rintro ⟨_, _, _, _, _, h⟩; simp [exKey] at h
  have hex : ∃ t, ({ msg := .str "{}", dict := [("alg", .str "HS256")] } : Jwx).signJson toyEnv [exKey]
      (some [([("typ", .str "JWT")], .none), ([("alg", .str "HS512")], .dict [("x", .int 1)])]) false
      (fun _ => 0) = .ok t := by
    cases h : ({ msg := .str "{}", dict := [("alg", .str "HS256")] } : Jwx).signJson toyEnv [exKey]
      (some [([("typ", .str "JWT")], .none), ([("alg", .str "HS512")], .dict [("x", .int 1)])]) false
      (fun _ => 0) with
    | ok t => exact ⟨t, rfl⟩
    | error e =>
      exfalso
      revert h
      have : (({ msg := .str "{}", dict := [("alg", .str "HS256")] } : Jwx).signJson toyEnv [exKey]
        (some [([("typ", .str "JWT")], .none), ([("alg", .str "HS512")], .dict [("x", .int 1)])]) false
        (fun _ => 0)).isOk = true := by decide +kernel
      intro h
      rw [h] at this
      simp [Except.isOk, Except.toBool] at this
  obtain ⟨t, ht⟩ := hex
  refine ⟨t, ht, C24_roundtrip toyEnv toyRsa_lawful _ "{}" rfl [exKey] (by simp) _ _ _ _ (.inl rfl)
    (by simp) .none ?_ (.dict []) (.inl (by decide +kernel)) (by decide) t ht {} false⟩
  have hk : ∀ (name : String) (h : HashAlg), SupportedAlg name (.hs h) → ∀ p u,
      EntryAlg { msg := .str "{}", dict := [("alg", .str "HS256")] } p (.str name) →
      (PyVal.dict p).jsonable = true → PyDict.get? p "cty" = none →
      (u.truthy = false ∨ ∃ d, u = .dict d ∧ u.jsonable = true ∧ PyDict.get? d "self" = none ∧
        PyDict.get? d "jwk" = none) →
      Merged p (members u) "kid" = none →
      HeaderOk toyEnv { msg := .str "{}", dict := [("alg", .str "HS256")] } [exKey] p u name (.hs h) := by
    intro name h hs p u ha hj hc hu hkid
    refine ⟨ha, hs, hj, .inl hc, ?_, ?_, ?_, ?_, ?_⟩
    · rcases hu with h | ⟨d, h1, h2, h3, h4⟩
      · exact .inl h
      · exact .inr ⟨d, h1, h2, h3, by simp [h4]⟩
    · intro k hk; rw [hkid]; exact .inr rfl
    · intro k hk
      rw [List.mem_singleton.mp hk]; exact ⟨rfl, rfl⟩
    · intro kid k hk _
      rw [List.mem_singleton.mp hk]; exact hec
    · intro kid inp sig k hk _ hn
      rw [List.mem_singleton.mp hk] at hn ⊢
      exact softFail_hmac _ _ _ _ _ hec _ rfl hn
  intro x hx
  simp only [List.mem_cons, List.not_mem_nil, or_false] at hx
  rcases hx with rfl | rfl
  · exact ⟨"HS256", .hs .sha256, hk _ _ .HS256 _ _ (.inr ⟨rfl, rfl⟩) (by decide) rfl (.inl rfl) rfl,
      by simp [none_truthy]⟩
  · exact ⟨"HS512", .hs .sha512, hk _ _ .HS512 _ _ (.inl rfl) (by decide) rfl
      (.inr ⟨_, rfl, by decide, rfl, rfl⟩) rfl, by simp [none_truthy]⟩

end Verif
