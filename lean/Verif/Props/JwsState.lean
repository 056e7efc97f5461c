import Verif.Props.JwsVerify
import Verif.Props.JwsSign
import Verif.Props.JwsJson

/-!
Properties C85–C88: what a JWS object (and the caller's dictionary) looks like after a call
(`/repo/src/jwkest/jws.py`).
-/

namespace Verif
open Spec

/-! ### C85: the object after verification -/

/-- The model's verification, taken apart for the state. -/
theorem verify_after (E : Env) (o : Jwx) (jws : Bytes) (keys : List Key) (an : Bool)
    (sigalg : PyVal) :
    let r := o.verifyVerbose E jws keys an sigalg
    (∀ m k, r.1 = .ok (m, some k) → r.2.msg = m ∧ r.2.key = some k ∧
      ∃ jwt alg, Jwt.unpack jws = .ok jwt ∧ jwt.headerAlg = .ok (alg, false) ∧ r.2.jwt = some jwt ∧
        r.2.dict = PyDict.set o.dict "alg" alg) ∧
    (∀ m, r.1 = .ok (m, none) → r.2.msg = m ∧ r.2.key = o.key ∧ r.2.dict = o.dict) ∧
    (∀ e, r.1 = .error e → r.2.msg = o.msg ∧ r.2.key = o.key) := by
  intro r
  have hdef : r = o.verifyVerbose E jws keys an sigalg := rfl
  clear_value r
  unfold Jwx.verifyVerbose at hdef
  generalize hu : Jwt.unpack jws = u at hdef ⊢
  rcases u with e | jwt
  · rw [hdef]; simp
  simp only at hdef
  split at hdef
  · rw [hdef]; simp
  generalize hx : jwt.headerAlg = x at hdef ⊢
  rcases x with e | ⟨alg, _ | _⟩
  · rw [hdef]; simp
  · simp only at hdef
    split at hdef
    · rw [hdef]; simp
    split at hdef
    · rw [hdef]; refine ⟨?_, ?_, ?_⟩ <;> intro _ <;> (split <;> simp)
    split at hdef
    · rw [hdef]; simp [hx]
    · rw [hdef]; simp
  · simp only at hdef
    split at hdef
    · split at hdef <;> (rw [hdef]; simp)
    · rw [hdef]; simp

/-- After a successful verification the object holds the message, the key that verified, the token, and
the token's algorithm; its other parameters are as before. -/
theorem C85_success (E : Env) (o : Jwx) (jws : Bytes) (keys : List Key) (an : Bool)
    (sigalg m : PyVal) (k : Key) (h : (o.verifyVerbose E jws keys an sigalg).1 = .ok (m, some k)) :
    let o' := (o.verifyVerbose E jws keys an sigalg).2
    o'.msg = m ∧ o'.key = some k ∧ o'.jwk = o.jwk ∧
      ∃ jwt hdr name, Jwt.unpack jws = .ok jwt ∧ o'.jwt = some jwt ∧ jwt.headers = .dict hdr ∧
        PyDict.get? hdr "alg" = some (.str name) ∧
        ∀ s, PyDict.get? o'.dict s = if s = "alg" then some (.str name) else PyDict.get? o.dict s := by
  intro o'
  obtain ⟨h1, -, -⟩ := verify_after E o jws keys an sigalg
  obtain ⟨hm, hk, jwt, alg, hu, hx, hj, hd⟩ := h1 m k h
  obtain ⟨s0, s1, hdr, p, sig, name, a, kid, l, ht, hal, -⟩ :=
    (verifyVerbose_iff E o jws keys an sigalg m k).mp h
  obtain ⟨s2, hb, hu'⟩ := unpack_of_token ht
  rw [hu] at hu'
  obtain rfl := Except.ok.inj hu'
  refine ⟨hm, hk, (verify_state E o jws keys an sigalg).1, _, hdr, name, hu, hj, rfl, hal, ?_⟩
  have hal' : alg = .str name := by
    simp only [Jwt.headerAlg, PyVal.getItem, hal] at hx
    rw [if_neg (by simp)] at hx
    simp only [Bind.bind] at hx
    obtain ⟨b, -, hx⟩ := bind_ok_iff.mp hx
    simp only [Except.ok.injEq, Prod.mk.injEq] at hx
    exact hx.1.symm
  intro s
  simp only [o', hd, hal', PyDict.get?_set]

/-- An unsigned token replaces the message but not the key: `key` still names the signer of an earlier
token. -/
theorem C85_unsigned (E : Env) (o : Jwx) (jws : Bytes) (keys : List Key) (an : Bool)
    (sigalg m : PyVal) (h : (o.verifyVerbose E jws keys an sigalg).1 = .ok (m, none)) :
    let o' := (o.verifyVerbose E jws keys an sigalg).2
    o'.msg = m ∧ o'.key = o.key ∧ o'.dict = o.dict ∧ o'.jwk = o.jwk :=
  have h1 := (verify_after E o jws keys an sigalg).2.1 m h
  ⟨h1.1, h1.2.1, h1.2.2, (verify_state E o jws keys an sigalg).1⟩

/-- A refused token leaves message, key and every parameter but `alg`. -/
theorem C85_failure (E : Env) (o : Jwx) (jws : Bytes) (keys : List Key) (an : Bool)
    (sigalg : PyVal) (e : Exc) (h : (o.verifyVerbose E jws keys an sigalg).1 = .error e) :
    let o' := (o.verifyVerbose E jws keys an sigalg).2
    o'.msg = o.msg ∧ o'.key = o.key ∧ o'.jwk = o.jwk ∧
      ∀ s, s ≠ "alg" → PyDict.get? o'.dict s = PyDict.get? o.dict s := by
  intro o'
  have h1 := (verify_after E o jws keys an sigalg).2.2 e h
  obtain ⟨hj, hd | ⟨jwt, alg, -, -, -, hd⟩⟩ := verify_state E o jws keys an sigalg
  · exact ⟨h1.1, h1.2, hj, fun s _ => by simp only [o', hd]⟩
  · exact ⟨h1.1, h1.2, hj, fun s hs => by simp only [o', hd]; rw [PyDict.get?_set, if_neg hs]⟩

/-- A first token decides: on an object without an algorithm, a token naming a signature algorithm fixes
it, whether it is accepted or not (with no expected algorithm given). -/
theorem C85_pins (E : Env) (o : Jwx) (jws : Bytes) (keys : List Key) (an : Bool) (s0 s1 : Bytes)
    (hdr : PyDict) (p sig : Bytes) (name : String) (ho : PyDict.get? o.dict "alg" = none)
    (ht : Token jws s0 s1 (.dict hdr) p sig) (hal : PyDict.get? hdr "alg" = some (.str name))
    (hn : pyLower name ≠ "none") (s : String) :
    PyDict.get? (o.verifyVerbose E jws keys an .none).2.dict s =
      if s = "alg" then some (.str name) else PyDict.get? o.dict s := by
  obtain ⟨s2, hb, hu⟩ := unpack_of_token ht
  have hx : Jwt.headerAlg ⟨.dict hdr, [s0, s1, s2], [hb, p, sig]⟩ = .ok (.str name, false) := by
    simp [Jwt.headerAlg, PyVal.getItem, hal, PyVal.lower, Bind.bind, Except.bind, hn]
  unfold Jwx.verifyVerbose
  simp only [hu, hx, List.length_cons, List.length_nil, Nat.zero_add, Nat.reduceAdd, ne_eq,
    not_true_eq_false, if_false, Jwx.algConflict, ho, Bool.false_eq_true, none_truthy, Bool.false_and]
  split <;> (simp only; rw [PyDict.get?_set])

/-- So a forged token makes the object refuse genuine ones: whatever the keys, one with another
algorithm then raises `SignerAlgError`. -/
theorem C85_forged_first (E : Env) (o : Jwx) (jws jws' : Bytes) (keys keys' : List Key) (an an' : Bool)
    (s0 s1 t0 t1 : Bytes) (hdr hdr' : PyDict) (p sig p' sig' : Bytes) (name name' : String)
    (ho : PyDict.get? o.dict "alg" = none)
    (ht : Token jws s0 s1 (.dict hdr) p sig) (hal : PyDict.get? hdr "alg" = some (.str name))
    (hn : pyLower name ≠ "none")
    (ht' : Token jws' t0 t1 (.dict hdr') p' sig') (hal' : PyDict.get? hdr' "alg" = some (.str name'))
    (hn' : pyLower name' ≠ "none") (hne : name' ≠ "") (hd : name ≠ name') (sigalg : PyVal) :
    ((o.verifyVerbose E jws keys an .none).2.verifyVerbose E jws' keys' an' sigalg).1 =
      .error .signerAlgError := by
  have h1 := C85_pins E o jws keys an s0 s1 hdr p sig name ho ht hal hn "alg"
  rw [if_pos rfl] at h1
  generalize (o.verifyVerbose E jws keys an .none).2 = o' at h1 ⊢
  obtain ⟨s2, hb, hu⟩ := unpack_of_token ht'
  have hx : Jwt.headerAlg ⟨.dict hdr', [t0, t1, s2], [hb, p', sig']⟩ = .ok (.str name', false) := by
    simp [Jwt.headerAlg, PyVal.getItem, hal', PyVal.lower, Bind.bind, Except.bind, hn']
  unfold Jwx.verifyVerbose
  simp only [hu, hx, List.length_cons, List.length_nil, Nat.zero_add, Nat.reduceAdd, ne_eq,
    not_true_eq_false, if_false, Jwx.algConflict, h1]
  rw [if_pos (by simp [PyVal.truthy, PyVal.pyEq, hne, hd])]

/-- What one entry of a JSON token does to the attribute `key`. -/
inductive EntrySigner (E : Env) (keys : List Key) (an : Bool) (pl : String) :
    PyVal → Option Key → Option Key → Prop
  | unsigned {sign ph sg unprot s0 s1 hdr p sig v old} (hse : SigEntry sign ph sg unprot)
      (ht : Token (utf8Encode ph ++ 46 :: utf8Encode pl ++ 46 :: utf8Encode sg) s0 s1 (.dict hdr) p sig)
      (han : an = true) (hal : PyDict.get? hdr "alg" = some v) (hn : NoneName v) :
      EntrySigner E keys an pl sign old old
  | signed {sign ph sg unprot s0 s1 hdr p sig name a k old} (hse : SigEntry sign ph sg unprot)
      (ht : Token (utf8Encode ph ++ 46 :: utf8Encode pl ++ 46 :: utf8Encode sg) s0 s1 (.dict hdr) p sig)
      (hal : PyDict.get? hdr "alg" = some (.str name)) (hsup : SupportedAlg name a)
      (hty : TypeFor a k.kty) (hacc : Accepts E k (s0 ++ 46 :: s1) sig a) (hk : keys ≠ [] → k ∈ keys) :
      EntrySigner E keys an pl sign old (some k)

/-- The same for a list of entries, one after the other. -/
inductive SignerAfter (E : Env) (keys : List Key) (an : Bool) (pl : String) :
    List PyVal → Option Key → Option Key → Prop
  | nil {old} : SignerAfter E keys an pl [] old old
  | cons {s l old mid new} (h : EntrySigner E keys an pl s old mid)
      (hl : SignerAfter E keys an pl l mid new) : SignerAfter E keys an pl (s :: l) old new

theorem reinit_key (E : Env) (o : Jwx) (kw : PyDict) (h : (o.reinit E kw).1 = .ok ()) :
    (o.reinit E kw).2.key = o.key := by
  unfold Jwx.reinit at h ⊢
  split at h
  · simp at h
  rename_i hs
  rw [if_neg hs]
  unfold Jwx.initBody at h ⊢
  simp only at h ⊢
  repeat' split
  all_goals rfl

theorem verifyEntry_key (E : Env) (o : Jwx) (payload sign : PyVal) (keys : List Key) (an : Bool)
    (sigalg m : PyVal) (h : (o.verifyEntry E payload sign keys an sigalg).1 = .ok m) :
    ∃ pl, payload = .str pl ∧
      EntrySigner E keys an pl sign o.key (o.verifyEntry E payload sign keys an sigalg).2.key := by
  unfold Jwx.verifyEntry at h ⊢
  generalize hep : entryParts payload sign = ep at h ⊢
  rcases ep with e | ⟨tok, kw⟩
  · simp at h
  obtain ⟨ph, pl, sg, prot, unprot, hb, hs, hse, rfl, rfl, -⟩ := (entryParts_iff _ _ _ _).mp hep
  refine ⟨pl, rfl, ?_⟩
  simp only at h ⊢
  have hrk := reinit_key E o kw
  generalize o.reinit E kw = r at h hrk ⊢
  obtain ⟨e | u, o'⟩ := r
  · simp at h
  have hrk := hrk rfl
  simp only at h hrk ⊢
  unfold Jwx.verifyCompact at h ⊢
  simp only at h ⊢
  obtain ⟨h1, h2, -⟩ := verify_after E o' (utf8Encode ph ++ 46 :: utf8Encode pl ++ 46 :: utf8Encode sg)
    keys an sigalg
  generalize hr : (o'.verifyVerbose E (utf8Encode ph ++ 46 :: utf8Encode pl ++ 46 :: utf8Encode sg)
    keys an sigalg) = r at h h1 h2 ⊢
  obtain ⟨e | ⟨m', _ | k⟩, o2⟩ := r
  · simp [Except.map] at h
  · obtain ⟨-, hk, -⟩ := h2 m' rfl
    obtain ⟨han, s0, s1, hdr, p, sig, v, ht, hv, hn⟩ :=
      C12_only_none E o' _ keys an sigalg m' (by rw [hr])
    simp only at hk ⊢
    rw [hk, hrk]
    exact .unsigned hse ht han hv hn
  · obtain ⟨-, hk, -⟩ := h1 m' k rfl
    obtain ⟨s0, s1, hdr, p, sig, name, a, kid, l, ht, hal, hsup, -, -, hl, -, ⟨pre, post, rfl, hsu, hacc, -⟩, -⟩ :=
      (verifyVerbose_iff E o' _ keys an sigalg m' k).mp (by rw [hr])
    simp only at hk ⊢
    rw [hk]
    refine .signed hse ht hal hsup hsu.1 hacc fun hne => ?_
    rcases hl with ⟨-, rfl⟩ | ⟨h0, -⟩
    · simp
    · exact absurd h0 hne

/-- The entries the model goes through are those listed, as far as their members count. -/
theorem listed_entries {d : PyDict} {l : List PyVal} (h : Listed d l) :
    ∃ l', signEntries d = .ok l' ∧
      List.Forall₂ (fun s' s => ∀ ph sg un, SigEntry s' ph sg un → SigEntry s ph sg un) l' l := by
  rcases h with h | ⟨rfl, h⟩ | ⟨h, rfl⟩
  · exact ⟨l, by simp [signEntries, h], List.forall₂_same.mpr fun _ _ _ _ _ hx => hx⟩
  · refine ⟨[], ?_, .nil⟩
    rcases h with h | h <;> simp [signEntries, h]
  · refine ⟨_, by simp only [signEntries, h]; rfl, .cons ?_ .nil⟩
    rintro ph sg un ⟨d', hd, h1, h2, h3⟩
    cases hd
    refine ⟨d, rfl, ?_⟩
    revert h1 h2 h3
    generalize PyDict.get? d "protected" = v1
    generalize PyDict.get? d "header" = v2
    generalize PyDict.get? d "signature" = v3
    rcases v1 with _ | v1 <;> rcases v2 with _ | v2 <;> rcases v3 with _ | v3 <;>
      simp +contextual [PyDict.get?, List.lookup_cons]

theorem entrySigner_congr {E : Env} {keys : List Key} {an : Bool} {pl : String} {s s' : PyVal}
    {old new : Option Key} (h : ∀ ph sg un, SigEntry s' ph sg un → SigEntry s ph sg un)
    (hs : EntrySigner E keys an pl s' old new) : EntrySigner E keys an pl s old new := by
  cases hs with
  | unsigned hse ht han hal hn => exact .unsigned (h _ _ _ hse) ht han hal hn
  | signed hse ht hal hsup hty hacc hk => exact .signed (h _ _ _ hse) ht hal hsup hty hacc hk

theorem signerAfter_congr {E : Env} {keys : List Key} {an : Bool} {pl : String} {l l' : List PyVal}
    (h : List.Forall₂ (fun s' s => ∀ ph sg un, SigEntry s' ph sg un → SigEntry s ph sg un) l' l) :
    ∀ {old new : Option Key}, SignerAfter E keys an pl l' old new → SignerAfter E keys an pl l old new := by
  induction h with
  | nil => intro old new hs; exact hs
  | cons h1 h2 ih =>
    intro old new hs
    cases hs with
    | cons g1 g2 => exact .cons (entrySigner_congr h1 g1) (ih g2)

/-- After `verify_json` the attribute `key` is the key of the last signed entry; unsigned entries, and
an empty list, leave the key of an earlier token. -/
theorem C85_json (E : Env) (o : Jwx) (jws : String) (keys : List Key) (an : Bool) (sigalg m : PyVal)
    (h : (o.verifyJson E jws keys an sigalg).1 = .ok m) :
    ∃ d l, jsonLoads jws = .ok (.dict d) ∧ Listed d l ∧
      (l ≠ [] → ∃ pl, PyDict.get? d "payload" = some (.str pl) ∧
        SignerAfter E keys an pl l o.key (o.verifyJson E jws keys an sigalg).2.key) ∧
      (l = [] → (o.verifyJson E jws keys an sigalg).2 = o) := by
  obtain ⟨d, p, l, ms, hd, hp, hl, -, -⟩ := (C23_exact E o jws keys an sigalg m).mp h
  refine ⟨d, l, hd, hl, ?_⟩
  obtain ⟨l', hse, hll⟩ := listed_entries hl
  have hparts : jsonParts jws = .ok (p, l') := by
    simp only [jsonParts, hd, hp, hse, Except.map]
  unfold Jwx.verifyJson at h ⊢
  rw [hparts] at h ⊢
  simp only at h ⊢
  have key : ∀ (l : List PyVal) (claim : PyVal) (o : Jwx),
      (o.verifyEntries E p keys an sigalg claim l).1 = .ok m →
      (l ≠ [] → ∃ pl, p = .str pl) ∧ ∀ pl, p = .str pl →
      SignerAfter E keys an pl l o.key (o.verifyEntries E p keys an sigalg claim l).2.key := by
    intro l
    induction l with
    | nil => intro claim o _; exact ⟨by simp, fun pl _ => .nil⟩
    | cons s l ih =>
      intro claim o h
      unfold Jwx.verifyEntries at h ⊢
      have hk := verifyEntry_key E o p s keys an sigalg
      generalize o.verifyEntry E p s keys an sigalg = r at h hk ⊢
      obtain ⟨e | m', o'⟩ := r
      · simp at h
      obtain ⟨pl, rfl, hs⟩ := hk m' rfl
      refine ⟨fun _ => ⟨pl, rfl⟩, ?_⟩
      intro pl' hpl
      cases hpl
      simp only at h hs ⊢
      split at h
      · rename_i hc
        rw [if_pos hc]
        exact .cons hs ((ih _ _ h).2 pl rfl)
      · rename_i hc
        rw [if_neg hc]
        split at h
        · rename_i he
          rw [if_pos he]
          exact .cons hs ((ih _ _ h).2 pl rfl)
        · simp at h
  obtain ⟨k1, k2⟩ := key l' .none o h
  constructor
  · intro hne
    obtain ⟨pl, rfl⟩ := k1 (by rintro rfl; cases hll; exact hne rfl)
    exact ⟨pl, hp, signerAfter_congr hll (k2 pl rfl)⟩
  · rintro rfl
    cases hll
    rfl

/-- After the signed token an unsigned one: the object still names the signer of the first. -/
example : let o1 := (({} : Jwx).verifyVerbose toyEnv exToken [exKey] false .none).2
    let r := o1.verifyVerbose toyEnv (ascii "eyJhbGciOiJuT25lIn0.eyJ4IjoxfQ.") [] true .none
    r.1 = .ok (.dict [("x", .int 1)], none) ∧ r.2.key = some exKey := by decide +kernel

/-- A worthless token for HS512 comes first: the genuine one is refused. -/
example : ((({} : Jwx).verifyVerbose toyEnv (ascii "eyJhbGciOiJIUzUxMiJ9.e30.AAAA") [exKey] false .none).1 =
      .error .badSignature) ∧
    (((({} : Jwx).verifyVerbose toyEnv (ascii "eyJhbGciOiJIUzUxMiJ9.e30.AAAA") [exKey] false
      .none).2).verifyVerbose toyEnv exToken [exKey] false .none).1 = .error .signerAlgError := by
  decide +kernel

example := C85_success _ _ _ _ _ _ _ _ exToken_ok

example : (({ key := some { exKey with kid := .str "old" } } : Jwx).verifyJson toyEnv
    "{\"payload\": \"e30\", \"signatures\": []}" [exKey] false .none).2.key =
    some { exKey with kid := .str "old" } := by decide +kernel

example : (({ key := some { exKey with kid := .str "old" } } : Jwx).verifyJson toyEnv exJson
    [exKey] false .none).2.key = some exKey := by decide +kernel

/-! ### C86: the algorithm sticks -/

/-- A call on a JWS object. -/
inductive JCall
  | verify (c : VCall)
  | sign (keys : List Key) (prot : PyDict) (rnd : Nat)

/-- The object after one call, whatever it returned or raised. -/
def JCall.after (E : Env) (o : Jwx) : JCall → Jwx
  | .verify c => (o.verifyCompact E c.jws c.keys c.allowNone c.sigalg).2
  | .sign keys prot rnd => (o.signCompact E keys prot rnd).2

/-- The object after a sequence of calls. -/
def afterAll (E : Env) (o : Jwx) (cs : List JCall) : Jwx := cs.foldl (JCall.after E) o

theorem signCompact_state (E : Env) (o : Jwx) (keys : List Key) (prot : PyDict) (rnd : Nat) :
    (o.signCompact E keys prot rnd).2 = (o.pickAlg keys).2 := by
  unfold Jwx.signCompact Jwx.algKeys
  simp only
  split <;> simp_all

theorem pickAlg_alg (o : Jwx) (keys : List Key) :
    PyDict.get? (o.pickAlg keys).2.dict "alg" = some (o.pickAlg keys).1 := by
  unfold Jwx.pickAlg
  rcases ha : PyDict.get? o.dict "alg" with _ | v
  · rcases keys with _ | ⟨k, _ | ⟨k', l⟩⟩
    · simp [none_truthy, PyDict.get?_set]
    · by_cases hk : k.alg.truthy = true <;> simp [hk, none_truthy, PyDict.get?_set]
    · simp [none_truthy, PyDict.get?_set]
  · by_cases hv : v.truthy = true <;> simp [hv, ha, PyDict.get?_set]

/-- Signing, successful or not, fixes the algorithm it used and changes nothing else. -/
theorem C86_sign_pins (E : Env) (o : Jwx) (keys : List Key) (prot : PyDict) (rnd : Nat) :
    let o' := (o.signCompact E keys prot rnd).2
    o'.msg = o.msg ∧ o'.jwk = o.jwk ∧ o'.jwt = o.jwt ∧ o'.key = o.key ∧
    ∃ alg, AlgFor o keys alg ∧
      ∀ s, PyDict.get? o'.dict s = if s = "alg" then some alg else PyDict.get? o.dict s := by
  intro o'
  obtain ⟨h1, h2, h3, h4⟩ := pickAlg_state o keys
  have e : o' = (o.pickAlg keys).2 := signCompact_state E o keys prot rnd
  rw [e]
  refine ⟨h1, h2, h3, ?_, _, pickAlg_spec o keys, fun s => ?_⟩
  · unfold Jwx.pickAlg
    simp only
    repeat' split
    all_goals rfl
  · split
    · rename_i hs; rw [hs]; exact pickAlg_alg o keys
    · rename_i hs; exact h4 s hs

/-- The algorithm is `A`, none, or something empty. -/
def StuckAt (A : String) (o : Jwx) : Prop :=
  ∃ v, PyDict.get? o.dict "alg" = some v ∧ (v = .str A ∨ v = .str "none" ∨ v.truthy = false)

theorem stuck_step (E : Env) (A : String) (o : Jwx) (h : StuckAt A o) (c : JCall) :
    StuckAt A (c.after E o) := by
  obtain ⟨v, hv, hA⟩ := h
  cases c with
  | sign keys prot rnd =>
    obtain ⟨-, -, -, -, alg, hal, hd⟩ := C86_sign_pins E o keys prot rnd
    refine ⟨alg, by simpa [JCall.after] using hd "alg", ?_⟩
    rcases hal with ⟨h, -⟩ | ⟨h, -⟩ | ⟨-, h⟩
    · rw [hv] at h; cases h; exact hA
    · rw [hv] at h; simp at h
    · exact .inr (.inl h)
  | verify c =>
    obtain ⟨-, hd | ⟨jwt, alg, -, hx, hc, hd⟩⟩ := verify_state E o c.jws c.keys c.allowNone c.sigalg
    · exact ⟨v, by simpa only [JCall.after, Jwx.verifyCompact, hd] using hv, hA⟩
    · refine ⟨alg, ?_, ?_⟩
      · simp only [JCall.after, Jwx.verifyCompact, hd]
        rw [PyDict.get?_set]; simp
      · by_cases ht : alg.truthy = true
        · simp only [Jwx.algConflict, hv, ht, Bool.true_and, Bool.not_eq_false'] at hc
          rcases hA with rfl | rfl | hf
          · exact .inl ((str_pyEq_iff _ _).mp hc)
          · exact .inr (.inl ((str_pyEq_iff _ _).mp hc))
          · exfalso
            obtain ⟨d, -, (⟨-, -, s, rfl⟩ | ⟨b, rfl⟩) | ⟨-, rfl⟩⟩ := headerAlg_some hx
            · rw [pyEq_str_iff] at hc
              rw [hc, ht] at hf
              simp at hf
            · cases v <;> simp [PyVal.pyEq] at hc
              rw [hc, ht] at hf
              simp at hf
            · simp [PyVal.truthy] at ht
        · exact .inr (.inr (by simpa using ht))

theorem stuck_all (E : Env) (A : String) (cs : List JCall) (o : Jwx) (h : StuckAt A o) :
    StuckAt A (afterAll E o cs) := by
  induction cs generalizing o with
  | nil => exact h
  | cons c cs ih => exact ih _ (stuck_step E A o h c)

/-- Once a call has used algorithm `A` to sign, then after any further calls, signing or verifying,
every token signed is signed with `A` or unsigned, and every token accepted with a key names `A`. -/
theorem C86_history (E : Env) (o : Jwx) (keys : List Key) (prot : PyDict) (rnd : Nat) (A : String)
    (hA : AlgFor o keys (.str A)) (cs : List JCall) :
    let o' := afterAll E (o.signCompact E keys prot rnd).2 cs
    (∀ keys' alg, AlgFor o' keys' alg → alg = .str A ∨ alg = .str "none") ∧
    (∀ jws keys' an sigalg m k, (o'.verifyVerbose E jws keys' an sigalg).1 = .ok (m, some k) →
      ∃ s0 s1 hdr p sig, Token jws s0 s1 (.dict hdr) p sig ∧
        PyDict.get? hdr "alg" = some (.str A)) := by
  intro o'
  obtain ⟨v, hv, hvA⟩ : StuckAt A o' := by
    refine stuck_all E A cs _ ?_
    obtain ⟨-, -, -, -, alg, hal, hd⟩ := C86_sign_pins E o keys prot rnd
    have : alg = .str A := algFor_unique hal hA
    exact ⟨alg, by simpa using hd "alg", .inl this⟩
  constructor
  · intro keys' alg h
    rcases h with ⟨h, ht⟩ | ⟨h, -⟩ | ⟨-, h⟩
    · rw [hv] at h
      cases h
      rcases hvA with h | h | h
      · exact .inl h
      · exact .inr h
      · rw [h] at ht; simp at ht
    · rw [hv] at h; simp at h
    · exact .inr h
  · intro jws keys' an sigalg m k h
    obtain ⟨s0, s1, hdr, p, sig, name, a, kid, l, ht, hal, hsup, hown, -⟩ :=
      (verifyVerbose_iff E _ jws keys' an sigalg m k).mp h
    refine ⟨s0, s1, hdr, p, sig, ht, ?_⟩
    have := hown v hv
    obtain ⟨hn, hne, -⟩ := supported_alg2keytype hsup
    rcases hvA with rfl | rfl | hf
    · rw [hal, this]
    · cases this; exact absurd (by decide) hn
    · rw [this] at hf
      simp [PyVal.truthy, hne] at hf

/-- So an object that has once produced an unsigned token, say for lack of an algorithm, never signs
again and refuses every signed token, whatever keys it is given later. -/
theorem C86_unsigned_forever (E : Env) (o : Jwx) (keys : List Key) (prot : PyDict) (rnd : Nat)
    (hA : AlgFor o keys (.str "none")) (cs : List JCall) :
    let o' := afterAll E (o.signCompact E keys prot rnd).2 cs
    (∀ keys' prot' rnd' t, (o'.signCompact E keys' prot' rnd').1 = .ok t →
      ∃ s0 s1, utf8Encode t = s0 ++ 46 :: s1 ++ [46]) ∧
    (∀ jws keys' an sigalg m k, (o'.verifyVerbose E jws keys' an sigalg).1 ≠ .ok (m, some k)) := by
  intro o'
  obtain ⟨h1, h2⟩ := C86_history E o keys prot rnd "none" hA cs
  constructor
  · intro keys' prot' rnd' t h
    obtain ⟨alg, s0, s1, hal, ⟨-, ht⟩ | ⟨name, a, k, l, kid, ka, sig, rfl, hsup, -⟩⟩ := C21_exact _ _ _ _ _ _ h
    · exact ⟨s0, s1, ht⟩
    · have := h1 keys' _ hal
      rw [or_self] at this
      cases this
      exact absurd (by decide) (supported_alg2keytype hsup).1
  · intro jws keys' an sigalg m k h
    obtain ⟨s0, s1, hdr, p, sig, ht, hal⟩ := h2 jws keys' an sigalg m k h
    obtain ⟨t0, t1, hdr', p', sig', name, a, kid, l, ht', hal', hsup, -⟩ :=
      (verifyVerbose_iff E _ jws keys' an sigalg m k).mp h
    obtain ⟨-, -, hh, -, -⟩ := token_unique ht ht'
    cases hh
    rw [hal] at hal'
    cases hal'
    exact absurd (by decide) (supported_alg2keytype hsup).1

/-- Two keys and no algorithm; then a single key with one, in vain. -/
example : let o := ({ msg := .str "m" } : Jwx)
    let k := { exKey with alg := .str "HS256" }
    let o1 := (o.signCompact toyEnv [exKey, k] [] 0).2
    (o1.signCompact toyEnv [k] [] 0).1 = .ok "eyJhbGciOiJub25lIn0.bQ." ∧
    (o1.verifyVerbose toyEnv exToken [exKey] false .none).1 = .error .signerAlgError ∧
    (o.signCompact toyEnv [k] [] 0).1 ≠ .ok "eyJhbGciOiJub25lIn0.bQ." := by decide +kernel

example : AlgFor ({ msg := .str "m" } : Jwx) [exKey, exKey] (.str "none") :=
  .inr (.inr ⟨.inr ⟨rfl, by simp⟩, rfl⟩)

/-! ### C87: signing a reply with the object that verified -/

/-- Signing with an object that has verified a token uses the token's algorithm and, if the token has a
`kid` and the object none of its own, a key with that `kid`. -/
theorem C87_reply (E : Env) (o : Jwx) (jws : Bytes) (keys : List Key) (an : Bool) (sigalg m : PyVal)
    (k : Key) (h : (o.verifyVerbose E jws keys an sigalg).1 = .ok (m, some k))
    (s0 s1 : Bytes) (hdr : PyDict) (p sig : Bytes) (ht : Token jws s0 s1 (.dict hdr) p sig)
    (keys' : List Key) (prot : PyDict) (rnd : Nat) (t : String)
    (hs : ((o.verifyVerbose E jws keys an sigalg).2.signCompact E keys' prot rnd).1 = .ok t) :
    ∃ name a l k' kid, PyDict.get? hdr "alg" = some (.str name) ∧ SupportedAlg name a ∧
      EffKeys o keys' l ∧ WantedKid o.dict hdr kid ∧ FirstSigner a name kid l k' := by
  obtain ⟨-, -, hjwk, jwt, hdr', name, hu, hj, hh, hal, hd⟩ := C85_success E o jws keys an sigalg m k h
  generalize (o.verifyVerbose E jws keys an sigalg).2 = o' at hs hjwk hj hd
  obtain ⟨s2, hb, hu'⟩ := unpack_of_token ht
  rw [hu] at hu'
  obtain rfl := Except.ok.inj hu'
  cases hh
  obtain ⟨t0, t1, hdr2, p2, sig2, name2, a2, kid2, l2, ht2, hal2, hsup2, -⟩ :=
    (verifyVerbose_iff E o jws keys an sigalg m k).mp h
  obtain ⟨-, -, hh, -, -⟩ := token_unique ht ht2
  cases hh
  rw [hal] at hal2
  cases hal2
  obtain ⟨hnone, hne, -⟩ := supported_alg2keytype hsup2
  have hA' : AlgFor o' keys' (.str name) :=
    .inl ⟨by simpa using hd "alg", by simp [PyVal.truthy, hne]⟩
  obtain ⟨alg, key, u0, u1, hA, -, -, hc⟩ := signCompact_ok hs
  have halg : alg = .str name := algFor_unique hA hA'
  subst halg
  rcases hc with ⟨h1, -⟩ | ⟨name', a, k', l, kid, ka, sg, h1, hsup, -, hl, hkid, hfs, -⟩
  · cases h1; exact absurd (by decide) hnone
  cases h1
  refine ⟨name, a, l, k', kid, hal, hsup, ?_, ?_, hfs⟩
  · unfold EffKeys at hl ⊢
    rw [hjwk] at hl
    exact hl
  · unfold SignKid at hkid
    unfold WantedKid
    have hdk := hd "kid"
    rw [if_neg (by decide)] at hdk
    rw [hdk, hj] at hkid
    rcases hkid with h | ⟨h, ⟨h', -⟩ | ⟨j, hdr', hj', hjh, rfl⟩⟩
    · exact .inl h
    · simp at h'
    · cases hj'
      cases hjh
      rcases hk : PyDict.get? hdr "kid" with _ | v
      · exact .inr (.inr ⟨h, rfl, rfl⟩)
      · exact .inr (.inl ⟨h, rfl⟩)

/-- In particular one cannot sign a reply with a key of one's own when the peer's token has a `kid`. -/
theorem C87_own_key (E : Env) (o : Jwx) (jws : Bytes) (keys : List Key) (an : Bool) (sigalg m : PyVal)
    (k : Key) (h : (o.verifyVerbose E jws keys an sigalg).1 = .ok (m, some k))
    (s0 s1 : Bytes) (hdr : PyDict) (p sig : Bytes) (ht : Token jws s0 s1 (.dict hdr) p sig)
    (ho : PyDict.get? o.dict "kid" = none) (kid : String) (hne : kid ≠ "")
    (hk : PyDict.get? hdr "kid" = some (.str kid))
    (keys' : List Key) (hkeys : keys' ≠ []) (hother : ∀ x ∈ keys', x.kid ≠ .str kid)
    (prot : PyDict) (rnd : Nat) (t : String) :
    ((o.verifyVerbose E jws keys an sigalg).2.signCompact E keys' prot rnd).1 ≠ .ok t := by
  intro hs
  obtain ⟨name, a, l, k', kid', -, -, hl, hkid, pre, post, hpp, hsu, -⟩ :=
    C87_reply E o jws keys an sigalg m k h s0 s1 hdr p sig ht keys' prot rnd t hs
  obtain rfl : kid' = .str kid := by
    rcases hkid with h | ⟨-, h⟩ | ⟨-, h, -⟩
    · rw [ho] at h; simp at h
    · rw [hk] at h; exact (Option.some.inj h).symm
    · rw [hk] at h; simp at h
  rcases hl with ⟨-, rfl⟩ | ⟨h, -⟩
  · refine hother k' (by rw [hpp]; simp) ?_
    have := hsu.1.2.1 (by simp [PyVal.truthy, hne])
    exact (str_pyEq_iff _ _).mp this
  · exact hkeys h

/-- A token with `kid` "a"; the reply with key "b" fails, with another key "a" it works. -/
example : let tok := ascii "eyJhbGciOiJIUzI1NiIsImtpZCI6ImEifQ.e30."
    let ka := { exKey with kid := .str "a" }
    let kb := { exKey with kid := .str "b" }
    let sig := b64e (toyEnv.H.hmac .sha256 (ascii "k") (ascii "eyJhbGciOiJIUzI1NiIsImtpZCI6ImEifQ.e30"))
    let r := ({} : Jwx).verifyVerbose toyEnv (tok ++ sig) [ka] false .none
    r.1 = .ok (.dict [], some ka) ∧
    (r.2.signCompact toyEnv [kb] [] 0).1 = .error .noSuitableSigningKeys ∧
    (r.2.signCompact toyEnv [kb, ka] [] 0).1.isOk = true := by decide +kernel

/-! ### C88: the caller's dictionary -/

theorem protectedAfter_eq {E : Env} {o : Jwx} {keys : List Key} {prot xargs : PyDict} {key : Option Key}
    {alg : PyVal} (hne : prot ≠ []) (h : (o.algKeys E keys "sig" prot).1 = .ok (key, xargs, alg)) :
    o.protectedAfter E keys prot = signHeader o prot alg key := by
  unfold Jwx.protectedAfter
  rw [if_neg (by simpa using hne), h]
  obtain ⟨-, -, -, hdict⟩ := pickAlg_state o keys
  unfold Jwx.algKeys at h
  generalize o.pickAlg keys = pa at h hdict ⊢
  obtain ⟨alg', o1⟩ := pa
  simp only [Bind.bind] at h hdict ⊢
  obtain ⟨src, hsrc, h'⟩ := bind_ok_iff.mp h
  obtain ⟨ks, hks, h''⟩ := bind_ok_iff.mp h'
  simp only [hsrc, hks, Except.bind, hdict "typ" (by decide)]
  unfold signHeader
  rcases ks with _ | ⟨k, l⟩
  · obtain ⟨b, -, hak⟩ := bind_ok_iff.mp h''
    rcases b with _ | _
    · simp at hak
    · simp only [if_true, Except.ok.injEq, Prod.mk.injEq] at hak
      obtain ⟨rfl, rfl, rfl⟩ := hak
      rfl
  · simp only [Except.ok.injEq, Prod.mk.injEq] at h''
    obtain ⟨rfl, rfl, rfl⟩ := h''
    rfl

/-- After signing, the dictionary given as `protected` (unless empty) is the header of the token. -/
theorem C88_is_header (E : Env) (o : Jwx) (keys : List Key) (prot : PyDict) (rnd : Nat) (t : String)
    (hne : prot ≠ []) (h : (o.signCompact E keys prot rnd).1 = .ok t) :
    ∃ alg key s0 s1 s2, AlgFor o keys alg ∧
      SignedHeader o prot alg key (o.protectedAfter E keys prot) ∧
      utf8Encode t = s0 ++ 46 :: s1 ++ 46 :: s2 ∧
      b64encodeItem (.dict (o.protectedAfter E keys prot)) = .ok s0 ∧
      ((alg = .str "none" ∧ key = none) ∨ ∃ name a k l kid, alg = .str name ∧ SupportedAlg name a ∧
        key = some k ∧ EffKeys o keys l ∧ SignKid o kid ∧ FirstSigner a name kid l k) := by
  obtain ⟨alg, key, s0, s1, ⟨xargs, hak⟩, hA, h0, h1, hc⟩ := signCompact_parts h
  rw [protectedAfter_eq hne hak]
  rcases hc with ⟨h2, h3, h4⟩ | ⟨name, a, k, l, kid, ka, sig, h2, h3, h4, h5, h6, h7, -, -, h8⟩
  · exact ⟨alg, key, s0, s1, [], hA, signHeader_spec o prot alg key, h4, h0, .inl ⟨h2, h3⟩⟩
  · exact ⟨alg, key, s0, s1, _, hA, signHeader_spec o prot alg key, h8, h0,
      .inr ⟨name, a, k, l, kid, h2, h3, h4, h5, h6, h7⟩⟩

theorem split_first {a b x y : Bytes} (ha : (46 : UInt8) ∉ a) (hb : (46 : UInt8) ∉ b)
    (h : a ++ 46 :: x = b ++ 46 :: y) : a = b := by
  have h1 := splitDot_append a x ha
  have h2 := splitDot_append b y hb
  rw [h, h2] at h1
  exact (List.cons.inj h1).1.symm

/-- The header and signer of a token signed with the only key given. -/
theorem sign_one {E : Env} {o : Jwx} {k : Key} {prot : PyDict} {rnd : Nat} {t name : String} {a : SigAlg}
    (hsup : SupportedAlg name a) (hA : AlgFor o [k] (.str name))
    (h : (o.signCompact E [k] prot rnd).1 = .ok t) :
    ∃ s0 s1 s2, b64encodeItem (.dict (signHeader o prot (.str name) (some k))) = .ok s0 ∧
      utf8Encode t = s0 ++ 46 :: s1 ++ 46 :: s2 ∧
      (prot ≠ [] → o.protectedAfter E [k] prot = signHeader o prot (.str name) (some k)) := by
  obtain ⟨alg, key, s0, s1, ⟨xargs, hak⟩, hA', h0, h1, hc⟩ := signCompact_parts h
  obtain rfl := algFor_unique hA' hA
  rcases hc with ⟨h2, -⟩ | ⟨name', a', k', l, kid, ka, sig, h2, h3, rfl, hl, h6, ⟨pre, post, rfl, -⟩, -, -, h8⟩
  · cases h2
    exact absurd (by decide) (supported_alg2keytype hsup).1
  · rcases hl with ⟨-, hl⟩ | ⟨hl, -⟩
    · obtain rfl : k' = k := by
        have : k' ∈ [k] := by rw [← hl]; simp
        simpa using this
      exact ⟨s0, s1, _, h0, h8, fun hne => protectedAfter_eq hne hak⟩
    · simp at hl

/-- Reusing a dictionary: after signing with a key that has a `kid`, a token signed with another key
that has none still names the first key, and no object (without a `kid` of its own) finds the key that
signed it. -/
theorem C88_stale (E : Env) (o1 o2 : Jwx) (k1 k2 : Key) (prot : PyDict) (hne : prot ≠ [])
    (hp : (PyVal.dict prot).jsonable = true) (rnd1 rnd2 : Nat)
    (t1 t2 name1 name2 : String) (a1 a2 : SigAlg)
    (hs1 : SupportedAlg name1 a1) (hs2 : SupportedAlg name2 a2)
    (hA1 : AlgFor o1 [k1] (.str name1)) (hA2 : AlgFor o2 [k2] (.str name2))
    (hty1 : ∀ v, PyDict.get? o1.dict "typ" = some v → v.jsonable = true)
    (hty2 : ∀ v, PyDict.get? o2.dict "typ" = some v → v.jsonable = true)
    (kid : String) (hkid : kid ≠ "") (hk1 : k1.kid = .str kid) (hk2 : k2.kid = .str "")
    (h1 : (o1.signCompact E [k1] prot rnd1).1 = .ok t1)
    (h2 : (o2.signCompact E [k2] (o1.protectedAfter E [k1] prot) rnd2).1 = .ok t2) :
    ∃ s0 s1 s2 hb hs hdr, utf8Encode t2 = s0 ++ 46 :: s1 ++ 46 :: s2 ∧ (46 : UInt8) ∉ s0 ∧
      b64d s0 = .ok hb ∧ utf8Decode hb = .ok hs ∧
      jsonLoads hs = .ok (.dict hdr) ∧ PyDict.get? hdr "kid" = some (.str kid) ∧
      ∀ (o3 : Jwx) keys an sigalg m, PyDict.get? o3.dict "kid" = none →
        (o3.verifyVerbose E (utf8Encode t2) keys an sigalg).1 ≠ .ok (m, some k2) := by
  obtain ⟨-, -, -, -, -, hpa⟩ := sign_one hs1 hA1 h1
  have hpa := hpa hne
  rw [hpa] at h2
  have e1 : PyDict.get? (signHeader o1 prot (.str name1) (some k1)) "kid" = some (.str kid) := by
    rw [(signHeader_spec o1 prot (.str name1) (some k1)).2.1]
    simp [hk1, PyVal.truthy, hkid]
  have j1 := signHeader_jsonable o1 prot (.str name1) (some k1) hp rfl
    (by rintro x hx; cases hx; rw [hk1]; rfl) hty1
  generalize signHeader o1 prot (.str name1) (some k1) = prot' at h2 e1 j1
  obtain ⟨s0, s1, s2, h0, ht, -⟩ := sign_one hs2 hA2 h2
  have e2 : PyDict.get? (signHeader o2 prot' (.str name2) (some k2)) "kid" = some (.str kid) := by
    rw [(signHeader_spec o2 prot' (.str name2) (some k2)).2.1]
    simp [hk2, PyVal.truthy, e1]
  have j2 := signHeader_jsonable o2 prot' (.str name2) (some k2) j1 rfl
    (by rintro x hx; cases hx; rw [hk2]; rfl) hty2
  generalize signHeader o2 prot' (.str name2) (some k2) = hdr at h0 e2 j2
  obtain ⟨b, hb, hs, rfl, hlo⟩ := b64encodeItem_ok (.dict hdr) j2
  rw [hb] at h0
  obtain rfl := Except.ok.inj h0
  refine ⟨_, s1, s2, _, hs, hdr, ht, b64e_no_dot _, C01_roundtrip _, utf8Decode_encode _, hlo, e2, ?_⟩
  intro o3 keys an sigalg m ho hv
  obtain ⟨u0, u1, hdr', p, sig, name, a, kd, l, htok, -, -, -, -, -, hw, ⟨pre, post, rfl, hsu, -⟩, -⟩ :=
    (verifyVerbose_iff E o3 _ keys an sigalg m k2).mp hv
  obtain ⟨⟨u2, htt, -, -⟩, ⟨hd0, -⟩, ⟨hb', hs', hb1, hb2, hb3⟩, -⟩ := htok
  have hu0 : u0 = b64e (utf8Encode hs) := by
    rw [ht] at htt
    simp only [List.append_assoc, List.cons_append] at htt
    exact (split_first (b64e_no_dot _) hd0 htt).symm
  subst hu0
  rw [C01_roundtrip] at hb1
  obtain rfl := Except.ok.inj hb1
  rw [utf8Decode_encode] at hb2
  obtain rfl := Except.ok.inj hb2
  rw [hlo] at hb3
  cases hb3
  obtain rfl : kd = .str kid := by
    rcases hw with h | ⟨-, h⟩ | ⟨-, h, -⟩
    · rw [ho] at h; simp at h
    · rw [e2] at h; exact (Option.some.inj h).symm
    · rw [e2] at h; simp at h
  have := hsu.2.1 (by simp [PyVal.truthy, hkid])
  rw [hk2] at this
  simp [PyVal.pyEq, hkid] at this

/-- The header given is `{"x": 1}`; it is used for a key "a" and then for a key without `kid`. -/
example : let o := ({ msg := .str "m", dict := [("alg", .str "HS256")] } : Jwx)
    let ka := { exKey with kid := .str "a" }
    let kb := { exKey with kid := .str "" }
    let p := o.protectedAfter toyEnv [ka] [("x", .int 1)]
    p = [("x", .int 1), ("alg", .str "HS256"), ("kid", .str "a")] ∧
    (o.signCompact toyEnv [ka] [("x", .int 1)] 0).1.isOk = true ∧
    (o.signCompact toyEnv [kb] p 0).1.bind (fun t =>
      (({} : Jwx).verifyVerbose toyEnv (utf8Encode t) [kb] false .none).1.map Prod.fst) =
        .error .noSuitableSigningKeys ∧
    (o.signCompact toyEnv [kb] p 0).1.isOk = true := by
  decide +kernel

/-! ### C24: the form of the JSON serialization -/

theorem createSignature_form {E : Env} {o : Jwx} {keys : List Key} {prot : PyDict} {u : PyVal} {rnd : Nat}
    {e : PyDict} (h : o.createSignature E keys prot u rnd = .ok e) :
    ∃ s h0, e = [("signature", .str s)] ++ (if u.truthy then [("header", u)] else []) ++
      (if h0 = "" then [] else [("protected", .str h0)]) := by
  unfold Jwx.createSignature at h
  simp only [Bind.bind] at h
  obtain ⟨_, -, h1⟩ := bind_ok_iff.mp h
  obtain ⟨_, -, h2⟩ := bind_ok_iff.mp h1
  obtain ⟨_, -, h3⟩ := bind_ok_iff.mp h2
  obtain ⟨⟨a, b, c⟩, -, h4⟩ := bind_ok_iff.mp h3
  simp only [Except.ok.injEq] at h4
  exact ⟨c, a, h4.symm⟩

/-- `sign_json` returns the flattened form exactly when it is asked for and there is one header pair;
otherwise it returns the list of signatures, one for each header pair.  The payload is the encoded
message. -/
theorem C24_shape (E : Env) (o : Jwx) (msg : String) (hm : o.msg = .str msg) (keys : List Key)
    (headers : Option (List (PyDict × PyVal))) (flatten : Bool) (rnds : Nat → Nat)
    (l : List (PyDict × PyVal)) (hl : HeaderPairs o headers l)
    (hj : ∀ x ∈ l, x.2.truthy = true → x.2.jsonable = true) (t : String)
    (h : o.signJson E keys headers flatten rnds = .ok t) :
    ∃ d pl, jsonLoads t = .ok (.dict d) ∧ PyDict.get? d "payload" = some (.str pl) ∧
      utf8Encode pl = b64e (utf8Encode msg) ∧
      (flatten = true ∧ l.length = 1 → PyDict.get? d "signatures" = none ∧
        ∃ s, PyDict.get? d "signature" = some (.str s)) ∧
      (¬ (flatten = true ∧ l.length = 1) → PyDict.get? d "signature" = none ∧
        ∃ es, PyDict.get? d "signatures" = some (.list es) ∧ es.length = l.length) := by
  unfold Jwx.signJson at h
  simp only [Bind.bind] at h
  obtain ⟨pl, hpl0, h1⟩ := bind_ok_iff.mp h
  obtain ⟨hs, hhs, h2⟩ := bind_ok_iff.mp h1
  clear h h1
  have hpl : utf8Encode pl = b64e (utf8Encode msg) := by
    rw [hm] at hpl0
    exact (asciiEncode_utf8 (asciiEncode_decode hpl0)).1
  obtain rfl : hs = l := by
    rcases hl with rfl | ⟨rfl, alg, ha, rfl⟩
    · exact (Except.ok.inj hhs).symm
    · simp only [Jwx.headerList, Jwx.algAttr, ha, Bind.bind, Except.bind, Except.ok.injEq] at hhs
      exact hhs.symm
  clear hl hhs
  have hentry : ∀ {p u rnd e}, o.createSignature E keys p u rnd = .ok e →
      (u.truthy = true → u.jsonable = true) → (PyVal.dict e).jsonable = true := by
    intro p u rnd e he hu
    obtain ⟨s, h0, rfl⟩ := createSignature_form he
    by_cases ht : u.truthy = true <;> by_cases hh : h0 = "" <;>
      simp [ht, hh, PyVal.jsonable, PyVal.jsonableD, hu]
  have hall : ∀ (hs : List (PyDict × PyVal)) (i : Nat) (r : List PyVal),
      (∀ x ∈ hs, x.2.truthy = true → x.2.jsonable = true) →
      o.createAll E keys rnds i hs = .ok r → (∀ x ∈ r, x.jsonable = true) ∧ r.length = hs.length := by
    intro hs
    induction hs with
    | nil =>
      intro i r _ h
      simp only [Jwx.createAll, Except.ok.injEq] at h
      subst h
      simp
    | cons x hs ih =>
      intro i r hj h
      obtain ⟨p, u⟩ := x
      simp only [Jwx.createAll, Bind.bind] at h
      obtain ⟨e, he, h'⟩ := bind_ok_iff.mp h
      obtain ⟨r', hr', h''⟩ := bind_ok_iff.mp h'
      obtain rfl := Except.ok.inj h''
      obtain ⟨ih1, ih2⟩ := ih (i + 1) r' (fun y hy => hj y (by simp [hy])) hr'
      refine ⟨?_, by simp [ih2]⟩
      intro y hy
      rcases List.mem_cons.mp hy with rfl | hy
      · exact hentry he (hj (p, u) (by simp))
      · exact ih1 y hy
  have hgen : ∀ r, o.createAll E keys rnds 0 hs = .ok r →
      jsonDumps (.dict [("payload", .str pl), ("signatures", .list r)]) = .ok t →
      ∃ d, jsonLoads t = .ok (.dict d) ∧ PyDict.get? d "payload" = some (.str pl) ∧
        PyDict.get? d "signature" = none ∧
        ∃ es, PyDict.get? d "signatures" = some (.list es) ∧ es.length = hs.length := by
    intro r hr ht
    obtain ⟨hjr, hlen⟩ := hall hs 0 r hj hr
    obtain ⟨t', ht', hlo⟩ := jsonLoads_dumps (.dict [("payload", .str pl), ("signatures", .list r)])
      (by simp [PyVal.jsonable, PyVal.jsonableD, jsonableL_of hjr])
    rw [ht] at ht'
    obtain rfl := Except.ok.inj ht'
    exact ⟨_, hlo, rfl, rfl, r, rfl, hlen⟩
  split at h2
  · rename_i p u
    obtain ⟨e, he, ht⟩ := bind_ok_iff.mp h2
    have hej := hentry he (hj (p, u) (by simp))
    obtain ⟨s, h0, rfl⟩ := createSignature_form he
    set e := [("signature", PyVal.str s)] ++ (if u.truthy then [("header", u)] else []) ++
      (if h0 = "" then [] else [("protected", .str h0)]) with hedef
    have hdd : PyDict.update [("payload", .str pl)] e = ("payload", .str pl) :: e := by
      rw [hedef]
      by_cases hu : u.truthy = true <;> by_cases hh : h0 = "" <;> simp [hu, hh, PyDict.update, PyDict.set]
    rw [hdd] at ht
    have hdj : (PyVal.dict (("payload", .str pl) :: e)).jsonable = true := by
      have := hj (p, u) (by simp)
      simp only at this
      rw [hedef]
      by_cases hu : u.truthy = true <;> by_cases hh : h0 = "" <;>
        simp [hu, hh, PyVal.jsonable, PyVal.jsonableD, this]
    obtain ⟨t', ht', hlo⟩ := jsonLoads_dumps _ hdj
    rw [ht] at ht'
    obtain rfl := Except.ok.inj ht'
    refine ⟨_, pl, hlo, rfl, hpl, fun _ => ⟨?_, s, rfl⟩, fun hc => absurd ⟨rfl, rfl⟩ hc⟩
    rw [hedef]
    by_cases hu : u.truthy = true <;> by_cases hh : h0 = "" <;>
      simp [hu, hh, PyDict.get?, List.lookup_cons]
  · rename_i hnf
    obtain ⟨r, hr, ht⟩ := bind_ok_iff.mp h2
    obtain ⟨d, h1, h2, h3, h4⟩ := hgen r hr ht
    refine ⟨d, pl, h1, h2, hpl, ?_, fun _ => ⟨h3, h4⟩⟩
    rintro ⟨hf, hlen⟩
    obtain ⟨⟨p, u⟩, rfl⟩ := List.length_eq_one_iff.mp hlen
    exact (hnf p u hf rfl).elim

example (t : String) (h : ({ msg := .str "{}", dict := [("alg", .str "HS256")] } : Jwx).signJson toyEnv
    [exKey] none true (fun _ => 0) = .ok t) :
    ∃ d, jsonLoads t = .ok (.dict d) ∧ PyDict.get? d "signatures" = none := by
  obtain ⟨d, pl, h1, -, -, h2, -⟩ := C24_shape toyEnv _ "{}" rfl [exKey] none true _ _
    (.inr ⟨rfl, _, rfl, rfl⟩) (by simp [PyVal.truthy]) t h
  exact ⟨d, h1, (h2 ⟨rfl, rfl⟩).1⟩

example : (({ msg := .str "{}", dict := [("alg", .str "HS256")] } : Jwx).signJson toyEnv
    [exKey] none true (fun _ => 0)).isOk = true := by decide +kernel

end Verif
