import Verif.Props.JsonRaises
import Verif.Props.JwsForms
/-
C132: retrying a verification, and keys that do not concern a token.
-/

namespace Verif
open Spec

theorem set_set_same (d : PyDict) (k : String) (v : PyVal) : PyDict.set (PyDict.set d k v) k v = PyDict.set d k v := by
  induction d with
  | nil => simp [PyDict.set]
  | cons x d ih =>
    obtain ⟨a, w⟩ := x
    by_cases h : a = k
    · simp [PyDict.set, h]
    · simp [PyDict.set, h, ih]

theorem headerAlg_refl {j : Jwt} {alg : PyVal} {b : Bool} (h : j.headerAlg = .ok (alg, b)) : (alg.truthy && !alg.pyEq alg) = false := by
  unfold Jwt.headerAlg at h
  split at h
  · cases h; rfl
  · cases h
  · rename_i a _
    split at h
    · rename_i ha; cases h; subst ha; rfl
    · cases hl : a.lower with
      | error e => rw [hl] at h; cases h
      | ok l =>
        rw [hl] at h
        cases h
        cases alg <;> simp_all [PyVal.lower, PyVal.pyEq]

/-- What a call leaves of the object, as far as later calls with the same token go. -/
theorem verify_leaves (E : Env) (o : Jwx) (jws : Bytes) (keys : List Key) (an : Bool) (sigalg : PyVal) :
    (o.verifyVerbose E jws keys an sigalg).2.jwk = o.jwk ∧
    ((o.verifyVerbose E jws keys an sigalg).2.dict = o.dict ∨ ∃ jwt alg, Jwt.unpack jws = .ok jwt ∧ jwt.headerAlg = .ok (alg, false) ∧
      o.algConflict alg = false ∧ (o.verifyVerbose E jws keys an sigalg).2.dict = PyDict.set o.dict "alg" alg) := by
  unfold Jwx.verifyVerbose
  split
  · exact ⟨rfl, .inl rfl⟩
  rename_i jwt hu
  split
  · exact ⟨rfl, .inl rfl⟩
  dsimp only
  split
  · exact ⟨rfl, .inl rfl⟩
  · split
    · split <;> exact ⟨rfl, .inl rfl⟩
    · exact ⟨rfl, .inl rfl⟩
  · rename_i alg ha
    split
    · exact ⟨rfl, .inl rfl⟩
    rename_i hc
    split
    · exact ⟨rfl, .inl rfl⟩
    have hc' : o.algConflict alg = false := by simpa [Jwx.algConflict] using hc
    split
    · exact ⟨rfl, .inr ⟨jwt, alg, hu, ha, hc', rfl⟩⟩
    · exact ⟨rfl, .inr ⟨jwt, alg, hu, ha, hc', rfl⟩⟩

/-- The part of verification that depends on the keys. -/
def keyedPart (E : Env) (dict : PyDict) (jwk : Option JKey) (jwt : Jwt) (alg : PyVal) (keys : List Key) : PyM (Key × PyVal) := do
  let o : Jwx := { dict := dict, jwk := jwk, jwt := some jwt }
  let src ← o.keySource E keys
  let ks ← o.pickKeys alg2keytype src "" (.str "")
  if ks.isEmpty then .error .noSuitableSigningKeys
  else
    match signerOf alg with
    | none => .error .keyError
    | some none => .error .attributeError
    | some (some a) =>
      let inp ← jwt.signInput
      let sig ← (match jwt.part[2]? with | some s => .ok s | none => .error .indexError)
      let k ← verifyLoop E a inp sig ks
      let m ← jwt.payload E.jsonBytes
      .ok (k, m)

theorem verify_fst (E : Env) (o : Jwx) (jws : Bytes) (keys : List Key) (an : Bool) (sigalg : PyVal) :
    (o.verifyVerbose E jws keys an sigalg).1 = (do
      let jwt ← Jwt.unpack jws
      if jwt.part.length ≠ 3 then .error .wrongNumberOfParts
      else
        match ← jwt.headerAlg with
        | (_, true) => if an then (jwt.payload E.jsonBytes).map fun m => (m, none) else .error .signerAlgError
        | (alg, false) =>
          if o.algConflict alg then .error .signerAlgError
          else if sigalg.truthy && !sigalg.pyEq alg then
            (if PyVal.getItem jwt.headers "alg" = .error .keyError then .error .keyError else .error .signerAlgError)
          else (keyedPart E (PyDict.set o.dict "alg" alg) o.jwk jwt alg keys).map fun r => (r.2, some r.1)) := by
  unfold Jwx.verifyVerbose
  cases hu : Jwt.unpack jws with
  | error e => rfl
  | ok jwt =>
    simp only [Bind.bind, Except.bind]
    split
    · rfl
    cases ha : jwt.headerAlg with
    | error e => rfl
    | ok r =>
      obtain ⟨alg, b⟩ := r
      cases b with
      | true =>
        dsimp only
        cases an with
        | true =>
          simp only [if_true]
          cases jwt.payload E.jsonBytes <;> rfl
        | false => rfl
      | false =>
        dsimp only
        have hc : ({ o with jwt := some jwt } : Jwx).algConflict alg = o.algConflict alg := rfl
        rw [hc]
        split
        · rfl
        split
        · rfl
        show (match keyedPart E (PyDict.set o.dict "alg" alg) o.jwk jwt alg keys with
          | .ok (k, m) => ((.ok (m, some k) : PyM (PyVal × Option Key)),
              ({ o with dict := PyDict.set o.dict "alg" alg, jwt := some jwt, msg := m, key := some k } : Jwx))
          | .error e => (.error e, { o with dict := PyDict.set o.dict "alg" alg, jwt := some jwt })).1 = _
        cases keyedPart E (PyDict.set o.dict "alg" alg) o.jwk jwt alg keys with
        | error e => rfl
        | ok r => rfl

/-- **C132.** Whatever a first call with a token did (other keys, allow_none, expected algorithm), a second call with the
token has the result it would have had on the object before. -/
theorem C132_retry (E : Env) (o : Jwx) (jws : Bytes) (keys keys' : List Key) (an an' : Bool) (sigalg sigalg' : PyVal) :
    ((o.verifyVerbose E jws keys' an' sigalg').2.verifyVerbose E jws keys an sigalg).1 = (o.verifyVerbose E jws keys an sigalg).1 := by
  obtain ⟨h1, h2⟩ := verify_leaves E o jws keys' an' sigalg'
  generalize (o.verifyVerbose E jws keys' an' sigalg').2 = o' at h1 h2
  rw [verify_fst, verify_fst, h1]
  rcases h2 with h2 | ⟨jwt, alg, hu, ha, hc, h2⟩
  · have : ∀ alg, o'.algConflict alg = o.algConflict alg := fun alg => by unfold Jwx.algConflict; rw [h2]
    simp only [this, h2]
  · have hc' : o'.algConflict alg = false := by
      unfold Jwx.algConflict
      rw [h2, PyDict.get?_set, if_pos rfl]
      exact headerAlg_refl ha
    simp only [hu, ha, Bind.bind, Except.bind, hc, hc', h2, set_set_same]

/-! ### Other keys in the list -/

/-- **C132.** A key that does not suit the token (by type, kid or alg) can be put into the list anywhere or taken from it: the
message or the exception is the same.  The list must not become empty, since then the object's own key is used. -/
theorem C132_unused (E : Env) (o : Jwx) {jws s0 s1 : Bytes} {hdr : PyDict} {p sig : Bytes} {name : String} {a : SigAlg} {kid : PyVal}
    (ht : Token jws s0 s1 (.dict hdr) p sig) (hal : PyDict.get? hdr "alg" = some (.str name)) (hsup : SupportedAlg name a)
    (hkid : WantedKid o.dict hdr kid) {pre post : List Key} {k : Key} (hne : pre ++ post ≠ []) (hk : ¬ Suitable a name kid k) (an : Bool)
    (sigalg : PyVal) :
    (o.verifyCompact E jws (pre ++ k :: post) an sigalg).1 = (o.verifyCompact E jws (pre ++ post) an sigalg).1 := by
  obtain ⟨hlow, hnn, kt, hkt, hty⟩ := supported_alg2keytype hsup
  have hkid' : (match PyDict.get? o.dict "kid" with | some v => v | none => (PyDict.get? hdr "kid").getD .none) = kid := by
    rcases hkid with h | ⟨h, h'⟩ | ⟨h, h', rfl⟩
    · rw [h]
    · rw [h, h']; rfl
    · rw [h, h']; rfl
  obtain ⟨j, hu, -, h1⟩ := verify_named E o ht hal hlow hnn hkt (keys := pre ++ k :: post) (by simp) an sigalg hkid'
  obtain ⟨j', hu', -, h2⟩ := verify_named E o ht hal hlow hnn hkt (keys := pre ++ post) hne an sigalg hkid'
  have hjj : j' = j := by
    rw [hu] at hu'
    exact (Except.ok.inj hu').symm
  subst hjj
  have : ((pre ++ k :: post).filter fun k => ktyMatches kt k.kty).filter (keyPasses kid "" (.str name)) =
      ((pre ++ post).filter fun k => ktyMatches kt k.kty).filter (keyPasses kid "" (.str name)) := by
    have hm : (keyPasses kid "" (.str name) k && ktyMatches kt k.kty) = false := by
      rw [Bool.and_comm]
      exact Bool.eq_false_iff.mpr fun hc => hk ((mem_picked hnn hty k).mp hc)
    rw [List.filter_filter, List.filter_filter, List.filter_append, List.filter_append, List.filter_cons, hm]
    simp
  rw [h1, h2, this]

/-- **C132.** Keys of any kind added at the end of the list do not change an acceptance. -/
theorem C132_append (E : Env) (o : Jwx) (jws : Bytes) {keys : List Key} (hne : keys ≠ []) (more : List Key) (an : Bool) (sigalg m : PyVal) (k : Key)
    (h : (o.verifyVerbose E jws keys an sigalg).1 = .ok (m, some k)) :
    (o.verifyVerbose E jws (keys ++ more) an sigalg).1 = .ok (m, some k) := by
  rw [verifyVerbose_iff] at h ⊢
  obtain ⟨s0, s1, hdr, p, sig, name, a, kid, l, ht, hal, hsup, h1, h2, heff, hkid, ⟨pre, post, hl, hs, hA, hpre⟩, hm⟩ := h
  rcases heff with ⟨-, rfl⟩ | ⟨h, -⟩
  · exact ⟨s0, s1, hdr, p, sig, name, a, kid, _, ht, hal, hsup, h1, h2, .inl ⟨by simp [hne], rfl⟩, hkid,
      ⟨pre, post ++ more, by rw [hl]; simp, hs, hA, hpre⟩, hm⟩
  · exact absurd h hne

/-- **C132.** HMAC and RSA keys, wherever they are added, do not prevent an acceptance. -/
theorem C132_more {E : Env} (hE : Standard E) (o : Jwx) (jws : Bytes) {keys keys' : List Key} (hne : keys ≠ []) (hsub : ∀ k ∈ keys, k ∈ keys')
    (hsh : ∀ s0 s1 hdr p sig name a kid, Token jws s0 s1 (.dict hdr) p sig → PyDict.get? hdr "alg" = some (.str name) → SupportedAlg name a →
      ∀ k ∈ keys', Suitable a name kid k → Shaped k a) (an : Bool) (sigalg m : PyVal) (k : Key)
    (h : (o.verifyVerbose E jws keys an sigalg).1 = .ok (m, some k)) :
    ∃ k', (o.verifyVerbose E jws keys' an sigalg).1 = .ok (m, some k') := by
  rw [verifyVerbose_iff] at h
  obtain ⟨s0, s1, hdr, p, sig, name, a, kid, l, ht, hal, hsup, h1, h2, heff, hkid, ⟨pre, post, rfl, hs, hA, hpre⟩, hm⟩ := h
  rcases heff with ⟨-, rfl⟩ | ⟨h, -⟩
  · have hk : k ∈ keys' := hsub k (by simp)
    refine (C20_some_key E o jws keys' (List.ne_nil_of_mem hk) an sigalg m s0 s1 hdr p sig name a kid ht hal hsup h1 h2 hkid hm ?_).mpr
      ⟨k, hk, hs, hA⟩
    intro x hx hsx hn
    exact softFail_std hE (hsh _ _ _ _ _ _ _ _ ht hal hsup x hx hsx) hn
  · exact absurd h hne

/-! ### Examples -/

/-- First with a key that is not the right one, then with the right one: accepted, as if the first call had not been. -/
example : (({} : Jwx).verifyVerbose toyEnv exToken [{ exKey with key := .val (.bytes [1]) }] false .none).1 = .error .badSignature ∧
    ((({} : Jwx).verifyVerbose toyEnv exToken [{ exKey with key := .val (.bytes [1]) }] false .none).2.verifyVerbose toyEnv exToken
      [exKey] false .none).1 = .ok (.dict [], some exKey) := by
  rw [C132_retry]
  decide +kernel

/-- A key of another type put before, between or after changes nothing, here for a token that is accepted. -/
example (k : Key) (hk : k.kty = .str "RSA") : (({} : Jwx).verifyCompact toyEnv exToken [k, exKey] false .none).1 = .ok (.dict []) := by
  have hns : ¬ Suitable (.hs .sha256) "HS256" .none k := by
    rintro ⟨ht, -⟩
    rw [hk] at ht
    exact absurd (spelled_str ht) (by decide)
  have := C132_unused toyEnv {} exToken_token rfl .HS256 (kid := .none) (.inr (.inr ⟨rfl, rfl, rfl⟩)) (pre := []) (post := [exKey])
    (by simp) hns false .none
  exact this.trans (by decide +kernel)

/-- Whatever stands after the key. -/
example (more : List Key) : (({} : Jwx).verifyVerbose toyEnv exToken ([exKey] ++ more) false .none).1 = .ok (.dict [], some exKey) :=
  C132_append toyEnv {} exToken (by simp) more false .none _ _ exToken_ok

/-- Further oct keys before it, with any secrets. -/
example (jws b : Bytes) (m : PyVal) (k : Key) (h : (({} : Jwx).verifyVerbose stdEnv jws [exKey] false .none).1 = .ok (m, some k)) :
    ∃ k', (({} : Jwx).verifyVerbose stdEnv jws [{ exKey with key := .val (.bytes b) }, exKey] false .none).1 = .ok (m, some k') := by
  refine C132_more stdEnv_standard {} jws (by simp) (by simp) ?_ false .none m k h
  intro s0 s1 hdr p sig name a kid _ _ _ x hx hs
  have hc : x.kty = .str "oct" ∧ x.mat = exKey.mat ∧ ∃ b, x.key = .val (.bytes b) := by
    simp only [List.mem_cons, List.not_mem_nil, or_false] at hx
    rcases hx with rfl | rfl
    · exact ⟨rfl, rfl, b, rfl⟩
    · exact ⟨rfl, rfl, _, rfl⟩
  obtain ⟨h1, h2, h3⟩ := hc
  have ht := hs.1
  rw [h1] at ht
  cases a with
  | hs d =>
    refine ⟨?_, h3⟩
    rintro ⟨_, _, _, _, _, h⟩
    rw [h2] at h
    cases h
  | rs d => exact absurd (spelled_str ht) (by decide)
  | ps d => exact absurd (spelled_str ht) (by decide)
  | es d => exact absurd (spelled_str ht) (by decide)

end Verif
