import Verif.Proofs.JwsVerify
/-
C12-C18, C20, C75, C76: verification of compact tokens.  Everything here holds for every `Env`,
i.e. whatever the libraries, the JSON fallback and the network do.
-/

namespace Verif
open Spec

/-- A symmetric key, a token made with it, and an object, for the examples. -/
def exKey : Key where
  kty := .str "oct"
  alg := .none
  use := .none
  kid := .none
  key := .val (.bytes (ascii "k"))
  x5c := .none
  x5t := .none
  x5u := .none
  extra := []
  hash := none
  mat := .sym .none
@[inherit_doc exKey]
def exToken : Bytes :=
  ascii "eyJhbGciOiJIUzI1NiJ9.e30.a2V5SmhiR2NpT2lKSVV6STFOaUo5LmUzMAAAAAAAAAA"

theorem exToken_ok : (({} : Jwx).verifyVerbose toyEnv exToken [exKey] false .none).1 =
    .ok (.dict [], some exKey) := by decide +kernel

/-! ### C12 -/

/-- A token whose algorithm is null or a spelling of "none" is refused, whatever the keys, the
expected algorithm and the state of the object. -/
theorem C12_refused (E : Env) (o : Jwx) (jws : Bytes) (keys : List Key) (sigalg : PyVal)
    (s0 s1 : Bytes) (hdr : PyDict) (p sig : Bytes) (ht : Token jws s0 s1 (.dict hdr) p sig)
    (v : PyVal) (hv : PyDict.get? hdr "alg" = some v) (hn : NoneName v) :
    (o.verifyCompact E jws keys false sigalg).1 = .error .signerAlgError := by
  obtain ⟨s2, hb, hu⟩ := unpack_of_token ht
  have hh : Jwt.headerAlg ⟨.dict hdr, [s0, s1, s2], [hb, p, sig]⟩ = .ok (v, true) := by
    rcases hn with rfl | ⟨s, rfl, hs⟩
    · simp [Jwt.headerAlg, PyVal.getItem, hv]
    · simp [Jwt.headerAlg, PyVal.getItem, hv, PyVal.lower, hs, Bind.bind, Except.bind]
  simp [Jwx.verifyCompact, Jwx.verifyVerbose, hu, hh, Except.map]

/-- With `allow_none` the payload is returned, without any key. -/
theorem C12_allowed (E : Env) (o : Jwx) (jws : Bytes) (keys : List Key) (sigalg : PyVal)
    (s0 s1 : Bytes) (hdr : PyDict) (p sig : Bytes) (ht : Token jws s0 s1 (.dict hdr) p sig)
    (v : PyVal) (hv : PyDict.get? hdr "alg" = some v) (hn : NoneName v) (m : PyVal) (k : Option Key) :
    (o.verifyVerbose E jws keys true sigalg).1 = .ok (m, k) ↔
      k = none ∧ Message E.jsonBytes hdr p m := by
  obtain ⟨s2, hb, hu⟩ := unpack_of_token ht
  have hh : Jwt.headerAlg ⟨.dict hdr, [s0, s1, s2], [hb, p, sig]⟩ = .ok (v, true) := by
    rcases hn with rfl | ⟨s, rfl, hs⟩
    · simp [Jwt.headerAlg, PyVal.getItem, hv]
    · simp [Jwt.headerAlg, PyVal.getItem, hv, PyVal.lower, hs, Bind.bind, Except.bind]
  rw [← message_iff E.jsonBytes ⟨.dict hdr, [s0, s1, s2], [hb, p, sig]⟩ hdr p m rfl rfl]
  simp only [Jwx.verifyVerbose, hu, hh, List.length_cons, List.length_nil, Nat.zero_add,
    Nat.reduceAdd, ne_eq, not_true_eq_false, if_false, if_true]
  rcases Jwt.payload E.jsonBytes ⟨.dict hdr, [s0, s1, s2], [hb, p, sig]⟩ with e | m'
  · simp
  · simp only [Except.ok.injEq, Prod.mk.injEq]
    constructor
    · rintro ⟨rfl, rfl⟩; exact ⟨rfl, rfl⟩
    · rintro ⟨rfl, rfl⟩; exact ⟨rfl, rfl⟩

/-- Conversely nothing is accepted without a key unless `allow_none` was given and the header says
none. -/
theorem C12_only_none (E : Env) (o : Jwx) (jws : Bytes) (keys : List Key) (an : Bool)
    (sigalg m : PyVal) (h : (o.verifyVerbose E jws keys an sigalg).1 = .ok (m, none)) :
    an = true ∧ ∃ s0 s1 hdr p sig v, Token jws s0 s1 (.dict hdr) p sig ∧
      PyDict.get? hdr "alg" = some v ∧ NoneName v := by
  obtain ⟨jwt, hdr, hu, hl, hh, -, ⟨-, han, ⟨v, hv, hn⟩, -⟩ | ⟨k, _, _, _, _, _, _, hk, -⟩⟩ :=
    verifyVerbose_ok h
  · obtain ⟨s0, s1, s2, hb, p, sig, -, -, ht⟩ := token_of_unpack hu hl
    rw [hh] at ht
    exact ⟨han, s0, s1, hdr, p, sig, v, ht, hv, hn⟩
  · simp at hk

/-- The token `{"alg":"nOne"}` with payload `{}` and an empty signature. -/
example (E : Env) (o : Jwx) (keys : List Key) :
    (o.verifyCompact E (ascii "eyJhbGciOiJuT25lIn0.e30.") keys false .none).1 =
      .error .signerAlgError :=
  C12_refused E o _ keys .none (ascii "eyJhbGciOiJuT25lIn0") (ascii "e30")
    [("alg", .str "nOne")] (ascii "{}") []
    ⟨⟨[], by decide, by decide, by decide⟩, by decide,
      ⟨ascii "{\"alg\":\"nOne\"}", "{\"alg\":\"nOne\"}", by decide +kernel, by decide +kernel,
        by decide +kernel⟩, by decide +kernel⟩
    (.str "nOne") (by decide) (.inr ⟨"nOne", rfl, by decide⟩)

/-! ### C13 -/

/-- Soundness: whenever `verify_compact_verbose` reports a key, the token has exactly three
segments, its header names a supported algorithm, the key is one of the given keys (without any, the
one set in the constructor), it is suitable, and it accepts the decoded third segment as signature
over the first two segments exactly as sent. -/
theorem C13_sound (E : Env) (o : Jwx) (jws : Bytes) (keys : List Key) (an : Bool)
    (sigalg m : PyVal) (k : Key)
    (h : (o.verifyVerbose E jws keys an sigalg).1 = .ok (m, some k)) :
    ∃ s0 s1 hdr p sig name a kid, Token jws s0 s1 (.dict hdr) p sig ∧
      PyDict.get? hdr "alg" = some (.str name) ∧ SupportedAlg name a ∧
      (keys ≠ [] → k ∈ keys) ∧ (keys = [] → o.jwk = some (.key k)) ∧
      WantedKid o.dict hdr kid ∧ Suitable a name kid k ∧
      Accepts E k (s0 ++ 46 :: s1) sig a ∧ Message E.jsonBytes hdr p m := by
  obtain ⟨s0, s1, hdr, p, sig, name, a, kid, l, ht, hal, hsup, -, -, heff, hkid,
    ⟨pre, post, rfl, hs, hA, -⟩, hm⟩ := (verifyVerbose_iff E o jws keys an sigalg m k).mp h
  refine ⟨s0, s1, hdr, p, sig, name, a, kid, ht, hal, hsup, ?_, ?_, hkid, hs, hA, hm⟩
  · intro hk
    rcases heff with ⟨-, rfl⟩ | ⟨h, -⟩
    · simp
    · exact absurd h hk
  · intro hk
    rcases heff with ⟨h, -⟩ | ⟨-, k', hj, hl⟩
    · exact absurd hk h
    · cases pre with
      | nil => simp only [List.nil_append, List.cons.injEq] at hl; rw [hj, hl.1]
      | cons x pre => simp at hl

example := C13_sound _ _ _ _ _ _ _ _ exToken_ok

/-! ### C14 -/

/-- No algorithm confusion: the algorithm family used is determined by the type of the key, HMAC
only ever uses a byte-string secret, and the RSA algorithms only ever an RSA key object. -/
theorem C14_no_confusion (E : Env) (o : Jwx) (jws : Bytes) (keys : List Key) (an : Bool)
    (sigalg m : PyVal) (k : Key)
    (h : (o.verifyVerbose E jws keys an sigalg).1 = .ok (m, some k)) :
    ∃ s0 s1 hdr p sig name a, Token jws s0 s1 (.dict hdr) p sig ∧
      PyDict.get? hdr "alg" = some (.str name) ∧ SupportedAlg name a ∧
      ((∃ d, a = .hs d) ↔ Spelled "oct" "OCT" k.kty) ∧
      ((∃ d, a = .rs d ∨ a = .ps d) ↔ Spelled "rsa" "RSA" k.kty) ∧
      ((∃ d, a = .es d) ↔ Spelled "ec" "EC" k.kty) ∧
      ((∃ d, a = .hs d) → ¬ IsEc k ∧ ∃ secret, k.key = .val (.bytes secret)) ∧
      ((∃ d, a = .rs d ∨ a = .ps d) → ¬ IsEc k ∧ ∃ r, k.key = .rsa r) := by
  obtain ⟨s0, s1, hdr, p, sig, name, a, kid, ht, hal, hsup, -, -, -, ⟨hty, -⟩, hA, -⟩ :=
    C13_sound E o jws keys an sigalg m k h
  have d1 : ∀ v, Spelled "oct" "OCT" v → ¬ Spelled "rsa" "RSA" v ∧ ¬ Spelled "ec" "EC" v := by
    rintro v (rfl | rfl | rfl | rfl) <;> unfold Spelled <;> decide
  have d2 : ∀ v, Spelled "rsa" "RSA" v → ¬ Spelled "oct" "OCT" v ∧ ¬ Spelled "ec" "EC" v := by
    rintro v (rfl | rfl | rfl | rfl) <;> unfold Spelled <;> decide
  have d3 : ∀ v, Spelled "ec" "EC" v → ¬ Spelled "oct" "OCT" v ∧ ¬ Spelled "rsa" "RSA" v := by
    rintro v (rfl | rfl | rfl | rfl) <;> unfold Spelled <;> decide
  refine ⟨s0, s1, hdr, p, sig, name, a, ht, hal, hsup, ?_⟩
  cases a with
  | hs d =>
    obtain ⟨hne, secret, hk, -⟩ := hA
    simp [d1 _ hty, show Spelled "oct" "OCT" k.kty from hty, hne, hk]
  | rs d =>
    obtain ⟨hne, r, hk, -⟩ := hA
    simp [d2 _ hty, show Spelled "rsa" "RSA" k.kty from hty, hne, hk]
  | ps d =>
    obtain ⟨hne, r, hk, -⟩ := hA
    simp [d2 _ hty, show Spelled "rsa" "RSA" k.kty from hty, hne, hk]
  | es d => simp [d3 _ hty, show Spelled "ec" "EC" k.kty from hty]

example := C14_no_confusion _ _ _ _ _ _ _ _ exToken_ok

/-! ### C15 -/

/-- Pinning: with an expected algorithm (argument, or set on the object) only tokens whose header
names exactly it are accepted. -/
theorem C15_pinned (E : Env) (o : Jwx) (jws : Bytes) (keys : List Key) (an : Bool)
    (sigalg m : PyVal) (k : Key)
    (h : (o.verifyVerbose E jws keys an sigalg).1 = .ok (m, some k)) :
    ∃ s0 s1 hdr p sig name, Token jws s0 s1 (.dict hdr) p sig ∧
      PyDict.get? hdr "alg" = some (.str name) ∧
      (sigalg.truthy = true → sigalg = .str name) ∧
      (∀ v, PyDict.get? o.dict "alg" = some v → v = .str name) := by
  obtain ⟨s0, s1, hdr, p, sig, name, a, kid, l, ht, hal, -, hown, hsig, -⟩ :=
    (verifyVerbose_iff E o jws keys an sigalg m k).mp h
  exact ⟨s0, s1, hdr, p, sig, name, ht, hal, hsig, hown⟩

/-- So a token with another algorithm is never accepted with a key. -/
theorem C15_other_refused (E : Env) (o : Jwx) (jws : Bytes) (keys : List Key) (an : Bool)
    (sigalg m v : PyVal) (k : Key) (s0 s1 : Bytes) (hdr : PyDict) (p sig : Bytes)
    (ht : Token jws s0 s1 (.dict hdr) p sig) (hv : PyDict.get? hdr "alg" = some v)
    (h : (sigalg.truthy = true ∧ sigalg ≠ v) ∨
      (∃ w, PyDict.get? o.dict "alg" = some w ∧ w ≠ v)) :
    (o.verifyVerbose E jws keys an sigalg).1 ≠ .ok (m, some k) := by
  intro hok
  obtain ⟨t0, t1, hdr', p', sig', name, ht', hal, h1, h2⟩ := C15_pinned E o jws keys an sigalg m k hok
  obtain ⟨-, -, hh, -, -⟩ := token_unique ht ht'
  cases hh
  rw [hv] at hal
  cases hal
  rcases h with ⟨ha, hb⟩ | ⟨w, hw, hb⟩
  · exact hb (h1 ha)
  · exact hb (h2 w hw)

example : (({} : Jwx).verifyVerbose toyEnv exToken [exKey] false (.str "HS256")).1 =
    .ok (.dict [], some exKey) ∧
    (({} : Jwx).verifyVerbose toyEnv exToken [exKey] false (.str "HS384")).1 =
      .error .signerAlgError := by decide +kernel

/-! ### C16, C75: histories -/

/-- The arguments of one call of `verify_compact`. -/
structure VCall where
  jws : Bytes
  keys : List Key
  allowNone : Bool
  sigalg : PyVal

/-- The object after a sequence of calls (whatever they returned or raised). -/
def afterCalls (E : Env) (o : Jwx) (cs : List VCall) : Jwx :=
  cs.foldl (fun o c => (o.verifyCompact E c.jws c.keys c.allowNone c.sigalg).2) o

/-- Which parts of the object a call can change. -/
theorem verify_state (E : Env) (o : Jwx) (jws : Bytes) (keys : List Key) (an : Bool)
    (sigalg : PyVal) :
    let o' := (o.verifyVerbose E jws keys an sigalg).2
    o'.jwk = o.jwk ∧ (o'.dict = o.dict ∨ ∃ jwt alg, Jwt.unpack jws = .ok jwt ∧
      jwt.headerAlg = .ok (alg, false) ∧ o.algConflict alg = false ∧
      o'.dict = PyDict.set o.dict "alg" alg) := by
  intro o'
  have hdef : o' = (o.verifyVerbose E jws keys an sigalg).2 := rfl
  unfold Jwx.verifyVerbose at hdef
  generalize Jwt.unpack jws = u at hdef ⊢
  rcases u with e | jwt
  · rw [hdef]; simp
  simp only at hdef
  split at hdef
  · rw [hdef]; simp
  generalize hx : jwt.headerAlg = x at hdef ⊢
  rcases x with e | ⟨alg, _ | _⟩
  · rw [hdef]; simp
  · simp only at hdef
    split at hdef
    · rw [hdef]; simp
    rename_i hc
    split at hdef
    · rw [hdef]; simp
    have hc : o.algConflict alg = false := by simpa [Jwx.algConflict] using hc
    split at hdef
    · rw [hdef]; exact ⟨rfl, .inr ⟨jwt, alg, rfl, hx, hc, rfl⟩⟩
    · rw [hdef]; exact ⟨rfl, .inr ⟨jwt, alg, rfl, hx, hc, rfl⟩⟩
  · simp only at hdef
    split at hdef
    · split at hdef <;> (rw [hdef]; simp)
    · rw [hdef]; simp

/-- The object's algorithm is `A`, or something empty. -/
def PinnedTo (A : String) (o : Jwx) : Prop :=
  ∃ v, PyDict.get? o.dict "alg" = some v ∧ (v = .str A ∨ v.truthy = false)

theorem pinned_step (E : Env) (A : String) (o : Jwx) (h : PinnedTo A o) (c : VCall) :
    PinnedTo A (o.verifyCompact E c.jws c.keys c.allowNone c.sigalg).2 := by
  obtain ⟨v, hv, hA⟩ := h
  obtain ⟨-, hd | ⟨jwt, alg, -, hx, hc, hd⟩⟩ := verify_state E o c.jws c.keys c.allowNone c.sigalg
  · exact ⟨v, by simpa only [Jwx.verifyCompact, hd] using hv, hA⟩
  · refine ⟨alg, ?_, ?_⟩
    · simp only [Jwx.verifyCompact, hd]
      rw [PyDict.get?_set]; simp
    · by_cases ht : alg.truthy = true
      · left
        simp only [Jwx.algConflict, hv, ht, Bool.true_and, Bool.not_eq_false'] at hc
        rcases hA with rfl | hf
        · exact (str_pyEq_iff _ _).mp hc
        · exfalso
          obtain ⟨d, -, (⟨-, -, s, rfl⟩ | ⟨b, rfl⟩) | ⟨-, rfl⟩⟩ := headerAlg_some hx
          · rw [pyEq_str_iff] at hc
            rw [hc] at hf
            rw [hf] at ht
            simp at ht
          · cases v <;> simp [PyVal.pyEq] at hc
            rw [hc] at hf
            rw [hf] at ht
            simp at ht
          · simp [PyVal.truthy] at ht
      · right; simpa using ht

theorem pinned_calls (E : Env) (A : String) (cs : List VCall) (o : Jwx) (h : PinnedTo A o) :
    PinnedTo A (afterCalls E o cs) := by
  induction cs generalizing o with
  | nil => exact h
  | cons c cs ih => exact ih _ (pinned_step E A o h c)

/-- Once the object has algorithm `A` (set in the constructor or by an earlier call), then after
any further calls, whatever their tokens and keys, a token accepted with a key names `A`. -/
theorem C16_history (E : Env) (A : String) (o : Jwx) (ho : PyDict.get? o.dict "alg" = some (.str A))
    (cs : List VCall) (c : VCall) (m : PyVal) (k : Key)
    (h : ((afterCalls E o cs).verifyVerbose E c.jws c.keys c.allowNone c.sigalg).1 =
      .ok (m, some k)) :
    ∃ s0 s1 hdr p sig, Token c.jws s0 s1 (.dict hdr) p sig ∧
      PyDict.get? hdr "alg" = some (.str A) := by
  obtain ⟨v, hv, hA⟩ := pinned_calls E A cs o ⟨.str A, ho, .inl rfl⟩
  obtain ⟨s0, s1, hdr, p, sig, name, a, kid, l, ht, hal, hsup, hown, -⟩ :=
    (verifyVerbose_iff E _ c.jws c.keys c.allowNone c.sigalg m k).mp h
  refine ⟨s0, s1, hdr, p, sig, ht, ?_⟩
  have := hown v hv
  rcases hA with rfl | hf
  · rw [hal, this]
  · have hne := (supported_alg2keytype hsup).2.1
    rw [this] at hf
    simp [PyVal.truthy, hne] at hf

/-- In particular after one accepted token with algorithm `A`. -/
theorem C16_accepted_pins (E : Env) (o : Jwx) (c0 : VCall) (m0 : PyVal) (k0 : Key)
    (h0 : (o.verifyVerbose E c0.jws c0.keys c0.allowNone c0.sigalg).1 = .ok (m0, some k0))
    (cs : List VCall) (c : VCall) (m : PyVal) (k : Key)
    (h : ((afterCalls E (o.verifyVerbose E c0.jws c0.keys c0.allowNone c0.sigalg).2 cs).verifyVerbose
      E c.jws c.keys c.allowNone c.sigalg).1 = .ok (m, some k)) :
    ∃ A s0 s1 hdr p sig t0 t1 hdr' p' sig',
      Token c0.jws s0 s1 (.dict hdr) p sig ∧ PyDict.get? hdr "alg" = some (.str A) ∧
      Token c.jws t0 t1 (.dict hdr') p' sig' ∧ PyDict.get? hdr' "alg" = some (.str A) := by
  obtain ⟨jwt, hdr, hu, hl, hh, -, h1 | ⟨k', name, a, src, ks, inp, sg, -, hal, -, -, -, -, -, -, -, -, hst⟩⟩ :=
    verifyVerbose_ok h0
  · simp at h1
  obtain ⟨s0, s1, s2, hb, p, sig, -, -, ht⟩ := token_of_unpack hu hl
  rw [hh] at ht
  obtain ⟨t0, t1, hdr', p', sig', ht', hal'⟩ := C16_history E name _
    (by rw [hst]; simp only; rw [PyDict.get?_set]; simp) cs c m k h
  exact ⟨name, s0, s1, hdr, p, sig, t0, t1, hdr', p', sig', ht, hal, ht', hal'⟩

/-- Two accepted calls in a row. -/
example : (((({} : Jwx).verifyVerbose toyEnv exToken [exKey] false .none).2).verifyVerbose toyEnv
    exToken [exKey] false .none).1 = .ok (.dict [], some exKey) := by decide +kernel

/-- C75: a three-part token whose header has no `alg` (or an empty one), given to an object without
an expected algorithm argument, is rejected, but leaves the object in a state in which it accepts no
signed token ever again, whatever is given to it. -/
theorem C75_poisoned (E : Env) (o : Jwx) (jws : Bytes) (keys0 : List Key) (an0 : Bool)
    (s0 s1 : Bytes) (hdr : PyDict) (p sig : Bytes) (ht : Token jws s0 s1 (.dict hdr) p sig)
    (hal : PyDict.get? hdr "alg" = none ∨ PyDict.get? hdr "alg" = some (.str ""))
    (cs : List VCall) (c : VCall) (m : PyVal) (k : Key) :
    ((afterCalls E (o.verifyCompact E jws keys0 an0 .none).2 cs).verifyVerbose E c.jws c.keys
      c.allowNone c.sigalg).1 ≠ .ok (m, some k) := by
  have hp : ∀ A, PinnedTo A (o.verifyCompact E jws keys0 an0 .none).2 := by
    intro A
    obtain ⟨s2, hb, hu⟩ := unpack_of_token ht
    obtain ⟨alg, hha, hf⟩ : ∃ alg, Jwt.headerAlg ⟨.dict hdr, [s0, s1, s2], [hb, p, sig]⟩ =
        .ok (alg, false) ∧ alg.truthy = false := by
      rcases hal with h | h
      · exact ⟨.none, by simp [Jwt.headerAlg, PyVal.getItem, h], rfl⟩
      · exact ⟨.str "", by
          simp [Jwt.headerAlg, PyVal.getItem, h, PyVal.lower, Bind.bind, Except.bind,
            show pyLower "" ≠ "none" by decide], by decide⟩
    have hconf : ∀ o : Jwx, o.algConflict alg = false := by
      intro o; unfold Jwx.algConflict; split <;> simp [hf]
    refine ⟨alg, ?_, .inr hf⟩
    simp only [Jwx.verifyCompact, Jwx.verifyVerbose, hu, hha, List.length_cons, List.length_nil,
      Nat.zero_add, Nat.reduceAdd, ne_eq, not_true_eq_false, if_false, hconf, Bool.false_eq_true,
      PyVal.truthy, Bool.false_and]
    split <;> (simp only; rw [PyDict.get?_set]; simp)
  intro h
  obtain ⟨v1, h1, hA1⟩ := pinned_calls E "a" cs _ (hp "a")
  obtain ⟨v2, h2, hA2⟩ := pinned_calls E "b" cs _ (hp "b")
  obtain ⟨t0, t1, hdr', p', sig', name, a, kid, l, -, -, hsup, hown, -⟩ :=
    (verifyVerbose_iff E _ c.jws c.keys c.allowNone c.sigalg m k).mp h
  rw [h1] at h2
  cases h2
  have hv := hown v1 h1
  have hne := (supported_alg2keytype hsup).2.1
  rw [hv] at hA1 hA2
  rcases hA1 with hA1 | hA1
  · rcases hA2 with hA2 | hA2
    · rw [hA1] at hA2; simp at hA2
    · simp [PyVal.truthy, hne] at hA2
  · simp [PyVal.truthy, hne] at hA1

/-- The token `e30.e30.` makes the object refuse a token it accepted before. -/
example : (((({} : Jwx).verifyCompact toyEnv (ascii "e30.e30.") [exKey] false .none).2).verifyVerbose
    toyEnv exToken [exKey] false .none).1 = .error .signerAlgError := by decide +kernel

/-! ### C17 -/

/-- HMAC integrity: acceptance under an HS algorithm means that the third segment decodes to the
HMAC of the first two as sent, under the secret of the reported key. -/
theorem C17_hmac (E : Env) (o : Jwx) (jws : Bytes) (keys : List Key) (an : Bool)
    (sigalg m : PyVal) (k : Key) (d : HashAlg) (name : String) (hn : SupportedAlg name (.hs d))
    (h : (o.verifyVerbose E jws keys an sigalg).1 = .ok (m, some k))
    (s0 s1 : Bytes) (hdr : PyDict) (p sig : Bytes) (ht : Token jws s0 s1 (.dict hdr) p sig)
    (hal : PyDict.get? hdr "alg" = some (.str name)) :
    ∃ secret, k.key = .val (.bytes secret) ∧ sig = E.H.hmac d secret (s0 ++ 46 :: s1) := by
  obtain ⟨t0, t1, hdr', p', sig', name', a, kid, ht', hal', hsup, -, -, -, -, hA, -⟩ :=
    C13_sound E o jws keys an sigalg m k h
  obtain ⟨rfl, rfl, hh, rfl, rfl⟩ := token_unique ht ht'
  cases hh
  rw [hal] at hal'
  cases hal'
  have : a = .hs d := by
    have h1 := (signerOf_iff (.str name) a).mpr ⟨name, rfl, hsup⟩
    have h2 := (signerOf_iff (.str name) (.hs d)).mpr ⟨name, rfl, hn⟩
    rw [h1] at h2
    simpa using h2
  subst this
  exact hA.2

/-- Two accepted tokens with the same HS algorithm, secret and signature that differ in the first
two segments exhibit an HMAC collision. -/
theorem C17_collision (E : Env) (o o' : Jwx) (jws jws' : Bytes) (keys keys' : List Key)
    (an an' : Bool) (sa sa' m m' : PyVal) (k k' : Key) (d : HashAlg) (name : String)
    (hn : SupportedAlg name (.hs d)) (secret : Bytes) (hk : k.key = .val (.bytes secret))
    (hk' : k'.key = .val (.bytes secret))
    (h : (o.verifyVerbose E jws keys an sa).1 = .ok (m, some k))
    (h' : (o'.verifyVerbose E jws' keys' an' sa').1 = .ok (m', some k'))
    (s0 s1 t0 t1 : Bytes) (hdr hdr' : PyDict) (p p' sig : Bytes)
    (ht : Token jws s0 s1 (.dict hdr) p sig) (ht' : Token jws' t0 t1 (.dict hdr') p' sig)
    (hal : PyDict.get? hdr "alg" = some (.str name))
    (hal' : PyDict.get? hdr' "alg" = some (.str name)) (hdiff : ¬ (s0 = t0 ∧ s1 = t1)) :
    s0 ++ 46 :: s1 ≠ t0 ++ 46 :: t1 ∧
      E.H.hmac d secret (s0 ++ 46 :: s1) = E.H.hmac d secret (t0 ++ 46 :: t1) := by
  obtain ⟨s, hs, he⟩ := C17_hmac E o jws keys an sa m k d name hn h s0 s1 hdr p sig ht hal
  obtain ⟨s', hs', he'⟩ := C17_hmac E o' jws' keys' an' sa' m' k' d name hn h' t0 t1 hdr' p' sig ht' hal'
  rw [hk] at hs; rw [hk'] at hs'
  cases hs; cases hs'
  refine ⟨?_, he.symm.trans he'⟩
  intro heq
  apply hdiff
  have e1 := splitDot_joinDot [s0, s1] (by simp) (by simpa using ht.no_dot)
  have e2 := splitDot_joinDot [t0, t1] (by simp) (by simpa using ht'.no_dot)
  have : joinDot [s0, s1] = joinDot [t0, t1] := by simpa [joinDot] using heq
  rw [this, e2] at e1
  simp only [List.cons.injEq, and_true] at e1
  exact ⟨e1.1.symm, e1.2.symm⟩

example : SupportedAlg "HS256" (.hs .sha256) ∧ exKey.key = .val (.bytes (ascii "k")) ∧
    (({} : Jwx).verifyVerbose toyEnv exToken [exKey] false .none).1 = .ok (.dict [], some exKey) :=
  ⟨.HS256, rfl, exToken_ok⟩

/-! ### C18 -/

/-- A token whose header has no `alg`, or an empty one, is never accepted, with any keys, whatever
`allow_none`. -/
theorem C18_no_alg (E : Env) (o : Jwx) (jws : Bytes) (keys : List Key) (an : Bool) (sigalg m : PyVal)
    (s0 s1 : Bytes) (hdr : PyDict) (p sig : Bytes) (ht : Token jws s0 s1 (.dict hdr) p sig)
    (hal : PyDict.get? hdr "alg" = none ∨ PyDict.get? hdr "alg" = some (.str "")) :
    (o.verifyCompact E jws keys an sigalg).1 ≠ .ok m := by
  intro h
  simp only [Jwx.verifyCompact] at h
  generalize hr : (o.verifyVerbose E jws keys an sigalg).1 = r at h
  rcases r with e | ⟨m', k⟩
  · simp [Except.map] at h
  · rcases k with _ | k
    · obtain ⟨-, t0, t1, hdr', p', sig', v, ht', hv, hn⟩ := C12_only_none E o jws keys an sigalg m' hr
      obtain ⟨-, -, hh, -, -⟩ := token_unique ht ht'
      cases hh
      rcases hal with h0 | h0
      · rw [h0] at hv; simp at hv
      · rw [h0] at hv
        cases hv
        rcases hn with hn | ⟨s, hs, hl⟩
        · simp at hn
        · cases hs; revert hl; decide
    · obtain ⟨t0, t1, hdr', p', sig', name, a, kid, ht', hv, hsup, -⟩ :=
        C13_sound E o jws keys an sigalg m' k hr
      obtain ⟨-, -, hh, -, -⟩ := token_unique ht ht'
      cases hh
      rcases hal with h0 | h0
      · rw [h0] at hv; simp at hv
      · rw [h0] at hv
        cases hv
        exact (supported_alg2keytype hsup).2.1 rfl

/-- More generally: every accepted token has exactly three segments and an object as header, whose
`alg` is supported, or a spelling of none with `allow_none`. -/
theorem C18_accepted_alg (E : Env) (o : Jwx) (jws : Bytes) (keys : List Key) (an : Bool)
    (sigalg m : PyVal) (h : (o.verifyCompact E jws keys an sigalg).1 = .ok m) :
    ∃ s0 s1 hdr p sig v, Token jws s0 s1 (.dict hdr) p sig ∧ PyDict.get? hdr "alg" = some v ∧
      ((∃ name a, v = .str name ∧ SupportedAlg name a) ∨ (an = true ∧ NoneName v)) := by
  simp only [Jwx.verifyCompact] at h
  generalize hr : (o.verifyVerbose E jws keys an sigalg).1 = r at h
  rcases r with e | ⟨m', _ | k⟩
  · simp [Except.map] at h
  · obtain ⟨han, t0, t1, hdr', p', sig', v, ht', hv, hn⟩ := C12_only_none E o jws keys an sigalg m' hr
    exact ⟨t0, t1, hdr', p', sig', v, ht', hv, .inr ⟨han, hn⟩⟩
  · obtain ⟨t0, t1, hdr', p', sig', name, a, kid, ht', hv, hsup, -⟩ :=
      C13_sound E o jws keys an sigalg m' k hr
    exact ⟨t0, t1, hdr', p', sig', _, ht', hv, .inl ⟨name, a, rfl, hsup⟩⟩

example (E : Env) (o : Jwx) (keys : List Key) (an : Bool) (sigalg m : PyVal) :
    (o.verifyCompact E (ascii "e30.e30.") keys an sigalg).1 ≠ .ok m :=
  C18_no_alg E o _ keys an sigalg m (ascii "e30") (ascii "e30") [] (ascii "{}") []
    ⟨⟨[], by decide, by decide, by decide⟩, by decide,
      ⟨ascii "{}", "{}", by decide +kernel, by decide +kernel, by decide +kernel⟩,
      by decide +kernel⟩ (.inl rfl)

/-! ### C20 -/

/-- If no suitable key makes the verifier raise an unexpected exception, acceptance means that some
suitable key accepts ... -/
theorem C20_some_key (E : Env) (o : Jwx) (jws : Bytes) (keys : List Key) (hne : keys ≠ []) (an : Bool)
    (sigalg m : PyVal) (s0 s1 : Bytes) (hdr : PyDict) (p sig : Bytes) (name : String) (a : SigAlg)
    (kid : PyVal) (ht : Token jws s0 s1 (.dict hdr) p sig)
    (hal : PyDict.get? hdr "alg" = some (.str name)) (hsup : SupportedAlg name a)
    (hown : ∀ v, PyDict.get? o.dict "alg" = some v → v = .str name)
    (hsig : sigalg.truthy = true → sigalg = .str name) (hkid : WantedKid o.dict hdr kid)
    (hm : Message E.jsonBytes hdr p m)
    (hsoft : ∀ x ∈ keys, Suitable a name kid x → ¬ Accepts E x (s0 ++ 46 :: s1) sig a →
      SoftFail E a (s0 ++ 46 :: s1) sig x) :
    (∃ k, (o.verifyVerbose E jws keys an sigalg).1 = .ok (m, some k)) ↔
      ∃ k ∈ keys, Suitable a name kid k ∧ Accepts E k (s0 ++ 46 :: s1) sig a := by
  constructor
  · rintro ⟨k, hk⟩
    obtain ⟨t0, t1, hdr', p', sig', name', a', kid', ht', hal', hsup', hin, -, hkid', hs, hA, -⟩ :=
      C13_sound E o jws keys an sigalg m k hk
    obtain ⟨rfl, rfl, hh, rfl, rfl⟩ := token_unique ht ht'
    cases hh
    rw [hal] at hal'
    cases hal'
    have h1 := (signerOf_iff (.str name) a).mpr ⟨name, rfl, hsup⟩
    have h2 := (signerOf_iff (.str name) a').mpr ⟨name, rfl, hsup'⟩
    rw [h1] at h2
    have haa : a = a' := by simpa using h2
    subst haa
    have hkk := wantedKid_unique hkid hkid'
    subst hkk
    exact ⟨k, hin hne, hs, hA⟩
  · rintro ⟨k, hk, hs, hA⟩
    have hex : ∃ pre k post, keys = pre ++ k :: post ∧
        (Suitable a name kid k ∧ Accepts E k (s0 ++ 46 :: s1) sig a) ∧
        ∀ x ∈ pre, ¬ (Suitable a name kid x ∧ Accepts E x (s0 ++ 46 :: s1) sig a) := by
      clear hsoft hne
      induction keys with
      | nil => simp at hk
      | cons y l ih =>
        by_cases hy : Suitable a name kid y ∧ Accepts E y (s0 ++ 46 :: s1) sig a
        · exact ⟨[], y, l, rfl, hy, by simp⟩
        · have hk' : k ∈ l := by
            rcases List.mem_cons.mp hk with rfl | h
            · exact absurd ⟨hs, hA⟩ hy
            · exact h
          obtain ⟨pre, z, post, rfl, hz, hpre⟩ := ih hk'
          refine ⟨y :: pre, z, post, rfl, hz, ?_⟩
          intro x hx
          rcases List.mem_cons.mp hx with rfl | hx
          · exact hy
          · exact hpre x hx
    obtain ⟨pre, z, post, hl, hz, hpre⟩ := hex
    refine ⟨z, (verifyVerbose_iff E o jws keys an sigalg m z).mpr ⟨s0, s1, hdr, p, sig, name, a, kid,
      keys, ht, hal, hsup, hown, hsig, .inl ⟨hne, rfl⟩, hkid, ⟨pre, post, hl, hz.1, hz.2, ?_⟩, hm⟩⟩
    intro x hx hsx
    exact hsoft x (by rw [hl]; simp [hx]) hsx (fun h => hpre x hx ⟨hsx, h⟩)

/-- ... the key reported is the first such key ... -/
theorem C20_first (E : Env) (o : Jwx) (jws : Bytes) (keys : List Key) (hne : keys ≠ []) (an : Bool)
    (sigalg m : PyVal) (k : Key)
    (h : (o.verifyVerbose E jws keys an sigalg).1 = .ok (m, some k)) :
    ∃ s0 s1 hdr p sig name a kid pre post, Token jws s0 s1 (.dict hdr) p sig ∧
      PyDict.get? hdr "alg" = some (.str name) ∧ SupportedAlg name a ∧ WantedKid o.dict hdr kid ∧
      keys = pre ++ k :: post ∧ Suitable a name kid k ∧ Accepts E k (s0 ++ 46 :: s1) sig a ∧
      ∀ x ∈ pre, ¬ (Suitable a name kid x ∧ Accepts E x (s0 ++ 46 :: s1) sig a) := by
  obtain ⟨s0, s1, hdr, p, sig, name, a, kid, l, ht, hal, hsup, -, -, heff, hkid,
    ⟨pre, post, rfl, hs, hA, hpre⟩, hm⟩ := (verifyVerbose_iff E o jws keys an sigalg m k).mp h
  rcases heff with ⟨-, rfl⟩ | ⟨h, -⟩
  · refine ⟨s0, s1, hdr, p, sig, name, a, kid, pre, post, ht, hal, hsup, hkid, rfl, hs, hA, ?_⟩
    rintro x hx ⟨h1, h2⟩
    obtain ⟨e, he, -⟩ := hpre x hx h1
    rw [(verify_iff E a x _ sig).mpr h2] at he
    simp at he
  · exact absurd h hne

/-- ... and the order of the keys does not matter. -/
theorem C20_order (E : Env) (o : Jwx) (jws : Bytes) (keys keys' : List Key) (hperm : keys.Perm keys')
    (an : Bool) (sigalg m : PyVal)
    (hsoft : ∀ s0 s1 hdr p sig name a kid, Token jws s0 s1 (.dict hdr) p sig →
      PyDict.get? hdr "alg" = some (.str name) → SupportedAlg name a → WantedKid o.dict hdr kid →
      ∀ x ∈ keys, Suitable a name kid x → ¬ Accepts E x (s0 ++ 46 :: s1) sig a →
        SoftFail E a (s0 ++ 46 :: s1) sig x) :
    (∃ k, (o.verifyVerbose E jws keys an sigalg).1 = .ok (m, some k)) ↔
    ∃ k, (o.verifyVerbose E jws keys' an sigalg).1 = .ok (m, some k) := by
  by_cases hne : keys = []
  · subst hne
    have : keys' = [] := by simpa using hperm.symm.eq_nil
    rw [this]
  have hne' : keys' ≠ [] := by rintro rfl; exact hne hperm.eq_nil
  have key : ∀ ks ks' : List Key, ks ≠ [] → ks' ≠ [] → (∀ x, x ∈ ks ↔ x ∈ ks') →
      (∀ x ∈ ks, x ∈ keys) →
      (∃ k, (o.verifyVerbose E jws ks an sigalg).1 = .ok (m, some k)) →
      ∃ k, (o.verifyVerbose E jws ks' an sigalg).1 = .ok (m, some k) := by
    rintro ks ks' h1 h2 hmem hsub ⟨k, hk⟩
    obtain ⟨s0, s1, hdr, p, sig, name, a, kid, l, ht, hal, hsup, hown, hsig, heff, hkid, hfa, hm⟩ :=
      (verifyVerbose_iff E o jws ks an sigalg m k).mp hk
    have hs := hsoft s0 s1 hdr p sig name a kid ht hal hsup hkid
    rw [C20_some_key E o jws ks' h2 an sigalg m s0 s1 hdr p sig name a kid ht hal hsup hown hsig hkid
      hm (fun x hx => hs x (hsub x ((hmem x).mpr hx)))]
    obtain ⟨x, hx, hx'⟩ := (C20_some_key E o jws ks h1 an sigalg m s0 s1 hdr p sig name a kid ht hal
      hsup hown hsig hkid hm (fun x hx => hs x (hsub x hx))).mp ⟨k, hk⟩
    exact ⟨x, (hmem x).mp hx, hx'⟩
  constructor
  · exact key keys keys' hne hne' (fun x => hperm.mem_iff) (fun x hx => hx)
  · exact key keys' keys hne' hne (fun x => hperm.mem_iff.symm) (fun x hx => hperm.mem_iff.mpr hx)

/-- The proviso is needed: a symmetric key without secret (`Key(kty="oct")`) makes `HMAC.new` raise
`TypeError`; put before the right key it prevents acceptance, put after it does not. -/
theorem C20_order_matters :
    (({} : Jwx).verifyVerbose toyEnv exToken [exKey, { exKey with key := .val .none }] false .none).1
      = .ok (.dict [], some exKey) ∧
    (({} : Jwx).verifyVerbose toyEnv exToken [{ exKey with key := .val .none }, exKey] false .none).1
      = .error .typeError := by decide +kernel

/-- HMAC keys with a secret always satisfy the proviso. -/
theorem softFail_hmac (E : Env) (d : HashAlg) (input sig : Bytes) (k : Key) (hec : ¬ IsEc k)
    (secret : Bytes) (hk : k.key = .val (.bytes secret)) (h : ¬ Accepts E k input sig (.hs d)) :
    SoftFail E (.hs d) input sig k := by
  refine ⟨.badSignature, ?_, .inl rfl⟩
  rw [getKey_not_ec hec, hk]
  have : constantTimeCompare (E.H.hmac d secret input) sig = false := by
    by_contra hc
    rw [Bool.not_eq_false, constantTimeCompare_iff] at hc
    exact h ⟨hec, secret, hk, hc.symm⟩
  simp [Except.bind, SigAlg.verify, hmacKey, Bind.bind, this]

example : (({} : Jwx).verifyVerbose toyEnv exToken
    [{ exKey with key := .val (.bytes [1]) }, exKey] false .none).1 = .ok (.dict [], some exKey) := by
  decide +kernel

end Verif
