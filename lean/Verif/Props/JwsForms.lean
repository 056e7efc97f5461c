import Verif.Props.JwsJson
import Verif.Props.EcMore
import Verif.Props.Real
/-
C106–C108: the compact and the JSON form of a signed token mean the same; which changes of the signature
segment leave a token valid; the length of that segment.
-/

namespace Verif
open Spec

/-! ### C106 -/

namespace Spec

/-- The compact token with the three given segments. -/
def compactToken (h p s : String) : Bytes := utf8Encode h ++ 46 :: utf8Encode p ++ 46 :: utf8Encode s

/-- The encoded header `h` has no member `self`, and if it has a member `jwk` that is a usable key or neither
an object nor text. -/
def PlainHeader (E : Env) (h : String) : Prop :=
  ∀ hb hs prot, b64d (utf8Encode h) = .ok hb → utf8Decode hb = .ok hs → jsonLoads hs = .ok (.dict prot) →
    PyDict.get? prot "self" = none ∧ ∀ v, PyDict.get? prot "jwk" = some v → ∃ k, EmbeddedKey E v k

/-- An entry of the member `signatures` with protected header `h` and signature `s` only. -/
def entryOf (h s : String) : PyVal := .dict [("protected", .str h), ("signature", .str s)]

end Spec

/-- A fresh object, some keys: when `verify_compact` returns. -/
theorem compact_fresh_iff (E : Env) (jws : Bytes) (keys : List Key) (hne : keys ≠ []) (an : Bool)
    (sigalg m : PyVal) :
    (({} : Jwx).verifyCompact E jws keys an sigalg).1 = .ok m ↔
    ∃ s0 s1 hdr p sig, Token jws s0 s1 (.dict hdr) p sig ∧ Message E.jsonBytes hdr p m ∧
      ((an = true ∧ ∃ v, PyDict.get? hdr "alg" = some v ∧ NoneName v) ∨
       ∃ name a k, PyDict.get? hdr "alg" = some (.str name) ∧ SupportedAlg name a ∧
        (sigalg.truthy = true → sigalg = .str name) ∧
        FirstAccepting E a name ((PyDict.get? hdr "kid").getD .none) (s0 ++ 46 :: s1) sig keys k) := by
  have hkid : ∀ (hdr : PyDict) kid, WantedKid ({} : Jwx).dict hdr kid ↔ kid = (PyDict.get? hdr "kid").getD .none := by
    intro hdr kid
    unfold WantedKid
    rcases h : PyDict.get? hdr "kid" with _ | v <;> simp [PyDict.get?]
    exact eq_comm
  have hc : (({} : Jwx).verifyCompact E jws keys an sigalg).1 = .ok m ↔
      ∃ ok, (({} : Jwx).verifyVerbose E jws keys an sigalg).1 = .ok (m, ok) := by
    unfold Jwx.verifyCompact
    simp only
    rcases (({} : Jwx).verifyVerbose E jws keys an sigalg).1 with e | ⟨m', ok⟩
    · simp [Except.map]
    · simp [Except.map]
  rw [hc]
  constructor
  · rintro ⟨_ | k, h⟩
    · obtain ⟨rfl, s0, s1, hdr, p, sig, v, ht, hv, hn⟩ := C12_only_none E _ _ _ _ _ _ h
      exact ⟨s0, s1, hdr, p, sig, ht, ((C12_allowed E _ _ _ _ _ _ _ _ _ ht v hv hn m none).mp h).2,
        .inl ⟨rfl, v, hv, hn⟩⟩
    · obtain ⟨s0, s1, hdr, p, sig, name, a, kid, l, ht, hal, hsup, -, hsa, hl, hk, hf, hM⟩ :=
        (verifyVerbose_iff _ _ _ _ _ _ _ _).mp h
      obtain rfl := (hkid _ _).mp hk
      rcases hl with ⟨-, rfl⟩ | ⟨h0, -⟩
      · exact ⟨s0, s1, hdr, p, sig, ht, hM, .inr ⟨name, a, k, hal, hsup, hsa, hf⟩⟩
      · exact absurd h0 hne
  · rintro ⟨s0, s1, hdr, p, sig, ht, hM, ⟨rfl, v, hv, hn⟩ | ⟨name, a, k, hal, hsup, hsa, hf⟩⟩
    · exact ⟨none, (C12_allowed E _ _ _ _ _ _ _ _ _ ht v hv hn m none).mpr ⟨rfl, hM⟩⟩
    · exact ⟨some k, (verifyVerbose_iff _ _ _ _ _ _ _ _).mpr ⟨s0, s1, hdr, p, sig, name, a, _, keys, ht, hal,
        hsup, by intro v hv; simp [PyDict.get?] at hv, hsa, .inl ⟨hne, rfl⟩, (hkid _ _).mpr rfl, hf, hM⟩⟩

/-- One entry without unprotected header is accepted exactly when the compact token is. -/
theorem entry_compact (E : Env) (keys : List Key) (hne : keys ≠ []) (an : Bool) (sigalg m : PyVal)
    (h p s : String) (d : PyDict) (hh : PyDict.get? d "protected" = some (.str h))
    (hs : PyDict.get? d "signature" = some (.str s)) (hu : PyDict.get? d "header" = none) :
    EntryVerified E keys an sigalg (.str p) (.dict d) m ↔
      (({} : Jwx).verifyCompact E (compactToken h p s) keys an sigalg).1 = .ok m ∧ PlainHeader E h := by
  rw [compact_fresh_iff E _ keys hne]
  have hmer : ∀ prot n, Merged prot [] n = PyDict.get? prot n := by
    intro prot n
    unfold Merged
    rcases PyDict.get? prot n with _ | v <;> simp [PyDict.get?]
  constructor
  · rintro ⟨ph, pl, sg, prot, un, pb, sig, ⟨d', hd, e1, e2, e3⟩, e4, ht, hM, hself, hjwk, hc⟩
    obtain rfl := PyVal.dict.inj hd
    rw [hh] at e1; cases e1
    rw [hs] at e2; cases e2
    cases e4
    rw [hu] at e3
    obtain ⟨-, rfl⟩ : True ∧ un = [] := by simpa using e3
    simp only [hmer] at hself hjwk hc
    refine ⟨⟨_, _, prot, pb, sig, ht, hM, ?_⟩, ?_⟩
    · rcases hc with hc | ⟨name, a, l, k, hal, hsup, hsa, ⟨-, rfl⟩ | ⟨h0, -⟩, hf⟩
      · exact .inl hc
      · exact .inr ⟨name, a, k, hal, hsup, hsa, hf⟩
      · exact absurd h0 hne
    · intro hb hs' prot' e1 e2 e3
      obtain ⟨hb2, hs2, f1, f2, f3⟩ := ht.header
      rw [f1] at e1; cases e1
      rw [f2] at e2; cases e2
      rw [f3] at e3; cases e3
      exact ⟨hself, hjwk⟩
  · rintro ⟨⟨s0, s1, hdr, pb, sig, ht, hM, hc⟩, hp⟩
    obtain ⟨hb, hs', f1, f2, f3⟩ := ht.header
    have hnd : (46 : UInt8) ∉ utf8Encode h ∧ (46 : UInt8) ∉ utf8Encode p := by
      obtain ⟨s2, e, -, h2⟩ := ht.text
      have hcount := congrArg (List.count 46) e
      simp only [compactToken, List.count_append, List.count_cons_self,
        List.count_eq_zero_of_not_mem ht.no_dot.1, List.count_eq_zero_of_not_mem ht.no_dot.2,
        List.count_eq_zero_of_not_mem h2] at hcount
      exact ⟨List.count_eq_zero.mp (by omega), List.count_eq_zero.mp (by omega)⟩
    obtain ⟨rfl, rfl⟩ := token_parts ht rfl hnd.1
    obtain ⟨g1, g2⟩ := hp hb hs' hdr f1 f2 f3
    refine ⟨h, p, s, hdr, [], pb, sig, ⟨d, rfl, hh, hs, .inr ⟨hu, rfl⟩⟩, rfl, ht, hM, ?_, ?_, ?_⟩
    · rw [hmer]; exact g1
    · intro v; rw [hmer]; exact g2 v
    · simp only [hmer]
      rcases hc with hc | ⟨name, a, k, hal, hsup, hsa, hf⟩
      · exact .inl hc
      · exact .inr ⟨name, a, keys, k, hal, hsup, hsa, .inl ⟨hne, rfl⟩, hf⟩

/-- Flattened form: `verify_json` returns `m` exactly when `verify_compact` of the same three segments on a
fresh object does, and the header has no bad `self` or `jwk` member. -/
theorem C106_flat (E : Env) (o : Jwx) (keys : List Key) (hne : keys ≠ []) (an : Bool) (sigalg m : PyVal)
    (h p s jws : String) (d : PyDict) (hd : jsonLoads jws = .ok (.dict d))
    (hp : PyDict.get? d "payload" = some (.str p)) (hh : PyDict.get? d "protected" = some (.str h))
    (hs : PyDict.get? d "signature" = some (.str s)) (hu : PyDict.get? d "header" = none)
    (hl : PyDict.get? d "signatures" = none) :
    (o.verifyJson E jws keys an sigalg).1 = .ok m ↔
      (({} : Jwx).verifyCompact E (compactToken h p s) keys an sigalg).1 = .ok m ∧ PlainHeader E h := by
  rw [C23_exact, ← entry_compact E keys hne an sigalg m h p s d hh hs hu]
  constructor
  · rintro ⟨d', p', l, ms, e1, e2, e3, hf, hc⟩
    rw [hd] at e1; cases e1
    rw [hp] at e2; cases e2
    obtain rfl : l = [.dict d] := by
      rcases e3 with e | ⟨-, e | e⟩ | ⟨-, e⟩
      · rw [hl] at e; simp at e
      · rw [hl] at e; simp at e
      · rw [hl] at e; simp at e
      · exact e
    cases hf with
    | cons h1 h2 =>
      cases h2
      rename_i x
      rcases hc with ⟨hc, rfl⟩ | ⟨pre, post, he, -, -⟩
      · rwa [hc x (by simp)] at h1
      · rcases pre with _ | ⟨y, pre⟩
        · simp only [List.nil_append, List.cons.injEq] at he
          rwa [he.1] at h1
        · simp at he
  · intro hv
    refine ⟨d, _, [.dict d], [m], hd, hp, .inr (.inr ⟨hl, rfl⟩), .cons hv .nil, ?_⟩
    by_cases hm : m = .none
    · exact .inl ⟨by simp [hm], hm⟩
    · exact .inr ⟨[], [], rfl, hm, by simp, by simp⟩

/-- General form: each entry counts as the compact token made of its protected header, the common payload
and its signature. -/
theorem C106_general (E : Env) (o : Jwx) (keys : List Key) (hne : keys ≠ []) (an : Bool) (sigalg m : PyVal)
    (p jws : String) (d : PyDict) (l : List (String × String)) (hd : jsonLoads jws = .ok (.dict d))
    (hp : PyDict.get? d "payload" = some (.str p))
    (hl : PyDict.get? d "signatures" = some (.list (l.map fun e => entryOf e.1 e.2))) :
    (o.verifyJson E jws keys an sigalg).1 = .ok m ↔
      ∃ ms, List.Forall₂ (fun e x =>
          (({} : Jwx).verifyCompact E (compactToken e.1 p e.2) keys an sigalg).1 = .ok x ∧ PlainHeader E e.1) l ms ∧
        Combined ms m := by
  rw [C23_exact]
  have key : ∀ ms, List.Forall₂ (EntryVerified E keys an sigalg (.str p)) (l.map fun e => entryOf e.1 e.2) ms ↔
      List.Forall₂ (fun e x =>
          (({} : Jwx).verifyCompact E (compactToken e.1 p e.2) keys an sigalg).1 = .ok x ∧ PlainHeader E e.1) l ms := by
    intro ms
    rw [List.forall₂_map_left_iff]
    have : ∀ (e : String × String) x, EntryVerified E keys an sigalg (.str p) (entryOf e.1 e.2) x ↔
        (({} : Jwx).verifyCompact E (compactToken e.1 p e.2) keys an sigalg).1 = .ok x ∧ PlainHeader E e.1 :=
      fun e x => entry_compact E keys hne an sigalg x e.1 p e.2 _ rfl rfl rfl
    simp only [this]
  constructor
  · rintro ⟨d', p', l', ms, e1, e2, e3, hf, hc⟩
    rw [hd] at e1; cases e1
    rw [hp] at e2; cases e2
    refine ⟨ms, ?_, hc⟩
    rcases e3 with e | ⟨-, e | e⟩ | ⟨e, -⟩
    · rw [hl] at e; cases e
      exact (key ms).mp hf
    · rw [hl] at e; simp at e
    · rw [hl] at e; simp at e
    · rw [hl] at e; simp at e
  · rintro ⟨ms, hf, hc⟩
    exact ⟨d, _, _, ms, hd, hp, .inl hl, (key ms).mpr hf, hc⟩

/-! ### C107 -/

/-- The outcome depends on the signature segment only through the bytes it decodes to. -/
theorem verify_sig_congr (E : Env) (o : Jwx) (keys : List Key) (an : Bool) (sigalg : PyVal)
    {jws jws' s0 s1 : Bytes} {hdr : PyVal} {p sig sig' : Bytes} (ht : Token jws s0 s1 hdr p sig)
    (ht' : Token jws' s0 s1 hdr p sig')
    (hv : ∀ v a, hdr.getItem "alg" = .ok v → signerOf v = some (some a) →
      ∀ ks, verifyLoop E a (s0 ++ 46 :: s1) sig' ks = verifyLoop E a (s0 ++ 46 :: s1) sig ks) :
    (o.verifyVerbose E jws' keys an sigalg).1 = (o.verifyVerbose E jws keys an sigalg).1 := by
  obtain ⟨s2, hb, hu⟩ := unpack_of_token ht
  obtain ⟨s2', hb', hu'⟩ := unpack_of_token ht'
  have hpay : Jwt.payload E.jsonBytes ⟨hdr, [s0, s1, s2'], [hb', p, sig']⟩ =
      Jwt.payload E.jsonBytes ⟨hdr, [s0, s1, s2], [hb, p, sig]⟩ := rfl
  have hha : Jwt.headerAlg ⟨hdr, [s0, s1, s2'], [hb', p, sig']⟩ =
      Jwt.headerAlg ⟨hdr, [s0, s1, s2], [hb, p, sig]⟩ := rfl
  unfold Jwx.verifyVerbose
  simp only [hu, hu', List.length_cons, List.length_nil, hpay, hha]
  rcases hx : Jwt.headerAlg ⟨hdr, [s0, s1, s2], [hb, p, sig]⟩ with e | ⟨alg, b⟩
  · rfl
  cases b
  · simp only
    have hc : Jwx.algConflict { o with jwt := some ⟨hdr, [s0, s1, s2'], [hb', p, sig']⟩ } alg =
      Jwx.algConflict { o with jwt := some ⟨hdr, [s0, s1, s2], [hb, p, sig]⟩ } alg := rfl
    rw [hc]
    split
    · rfl
    split
    · rfl
    split
    · rfl
    have hks : ∀ d, Jwx.keySource E { o with jwt := some ⟨hdr, [s0, s1, s2'], [hb', p, sig']⟩, dict := d } keys =
      Jwx.keySource E { o with jwt := some ⟨hdr, [s0, s1, s2], [hb, p, sig]⟩, dict := d } keys := fun d => rfl
    have hpk : ∀ d src u v, Jwx.pickKeys alg2keytype
        { o with jwt := some ⟨hdr, [s0, s1, s2'], [hb', p, sig']⟩, dict := d } src u v =
      Jwx.pickKeys alg2keytype { o with jwt := some ⟨hdr, [s0, s1, s2], [hb, p, sig]⟩, dict := d } src u v :=
      fun d src u v => rfl
    have hal : ∀ a, signerOf alg = some (some a) → hdr.getItem "alg" = .ok alg := by
      intro a ha
      unfold Jwt.headerAlg at hx
      simp only at hx
      rcases hg : hdr.getItem "alg" with e | v
      · rw [hg] at hx
        split at hx
        · cases hx; simp [signerOf] at ha
        · simp at hx
        · rename_i h; cases h
      · rw [hg] at hx
        simp only at hx
        split at hx
        · simp at hx
        · simp only [Bind.bind] at hx
          obtain ⟨w, -, h⟩ := bind_ok_iff.mp hx
          simp only [Except.ok.injEq, Prod.mk.injEq] at h
          rw [h.1]
    simp only [hks, hpk, Jwt.signInput, List.getElem?_cons_succ, List.getElem?_cons_zero]
    simp only [Bind.bind, Except.bind]
    rcases hk1 : Jwx.keySource E (Jwx.mk o.msg (PyDict.set o.dict "alg" alg) o.jwk
      (some ⟨hdr, [s0, s1, s2], [hb, p, sig]⟩) o.key) keys with e | src
    · rfl
    simp only
    rcases hk2 : Jwx.pickKeys alg2keytype (Jwx.mk o.msg (PyDict.set o.dict "alg" alg) o.jwk
      (some ⟨hdr, [s0, s1, s2], [hb, p, sig]⟩) o.key) src "" (.str "") with e | ks
    · rfl
    simp only
    by_cases hke : ks.isEmpty = true
    · simp [hke]
    simp only [hke, Bool.false_eq_true, if_false]
    rcases hs : signerOf alg with _ | _ | a
    · rfl
    · rfl
    simp only [hv alg a (hal a hs) hs]
    rcases verifyLoop E a (s0 ++ 46 :: s1) sig ks with e | k
    · rfl
    simp only
    rcases Jwt.payload E.jsonBytes ⟨hdr, [s0, s1, s2], [hb, p, sig]⟩ with e | m
    · rfl
    · rfl
  · simp only
    split
    · rfl
    split
    · split <;> rfl
    · rfl

/-- The header and the payload are determined by their segments. -/
theorem token_seg_unique {jws jws' s0 s1 : Bytes} {h h' : PyVal} {p p' sig sig' : Bytes}
    (a : Token jws s0 s1 h p sig) (b : Token jws' s0 s1 h' p' sig') : h = h' ∧ p = p' := by
  obtain ⟨hb, hs, a1, a2, a3⟩ := a.header
  obtain ⟨hb', hs', b1, b2, b3⟩ := b.header
  rw [a1] at b1; cases b1
  rw [a2] at b2; cases b2
  rw [a3] at b3; cases b3
  have := a.payload
  rw [b.payload] at this
  cases this
  exact ⟨rfl, rfl⟩

/-- Two tokens with the same first two segments whose third segments decode to the same bytes have the same
outcome, accepted or not. -/
theorem C107_spelling (E : Env) (o : Jwx) (keys : List Key) (an : Bool) (sigalg : PyVal)
    {jws jws' s0 s1 : Bytes} {hdr hdr' : PyVal} {p p' sig : Bytes} (ht : Token jws s0 s1 hdr p sig)
    (ht' : Token jws' s0 s1 hdr' p' sig) :
    (o.verifyVerbose E jws' keys an sigalg).1 = (o.verifyVerbose E jws keys an sigalg).1 := by
  obtain ⟨rfl, rfl⟩ := token_seg_unique ht ht'
  exact verify_sig_congr E o keys an sigalg ht ht' (fun _ _ _ _ _ => rfl)

/-- Every accepted token whose signature is not a whole number of groups of three bytes has an accepted
companion with another last character, and one with `=` signs at the end. -/
theorem C107_companions (E : Env) (o : Jwx) (keys : List Key) (an : Bool) (sigalg m : PyVal) (k : Key)
    {jws s0 s1 s2 : Bytes} {hdr : PyDict} {p sig : Bytes} (ht : Token jws s0 s1 (.dict hdr) p sig)
    (hj : jws = s0 ++ 46 :: s1 ++ 46 :: s2) (hn : (61 : UInt8) ∉ s2) (hl : sig.length % 3 ≠ 0)
    (h : (o.verifyVerbose E jws keys an sigalg).1 = .ok (m, some k)) :
    (∃ c c' s, s2 = s ++ [c] ∧ c' ≠ c ∧
      (o.verifyVerbose E (s0 ++ 46 :: s1 ++ 46 :: (s ++ [c'])) keys an sigalg).1 = .ok (m, some k)) ∧
    ∀ n, (o.verifyVerbose E (s0 ++ 46 :: s1 ++ 46 :: (s2 ++ List.replicate (n + 2) 61)) keys an sigalg).1 =
      .ok (m, some k) := by
  obtain ⟨t, e, hb, hd⟩ := ht.text
  obtain rfl : t = s2 := by
    rw [hj] at e
    exact (List.cons.inj (List.append_cancel_left e)).2.symm
  have tok : ∀ s', b64d s' = .ok sig → Token (s0 ++ 46 :: s1 ++ 46 :: s') s0 s1 (.dict hdr) p sig :=
    fun s' hs' => ⟨⟨s', rfl, hs', fun hc => (b64d_chars hs' _ hc).2 rfl⟩, ht.no_dot, ht.header, ht.payload⟩
  constructor
  · obtain ⟨d', hne, hn', hd'⟩ := C04_malleable t sig hn hb hl
    obtain ⟨-, hdl, -⟩ := C04_same_bytes t d' sig hn hn' hb hd'
    have ht0 : t ≠ [] := by
      rintro rfl
      rw [b64d_nil] at hb
      cases hb
      simp at hl
    have hd0 : d' ≠ [] := by
      rintro rfl
      rw [b64d_nil] at hd'
      cases hd'
      simp at hl
    have e1 := List.dropLast_append_getLast ht0
    have e2 := List.dropLast_append_getLast hd0
    refine ⟨t.getLast ht0, d'.getLast hd0, t.dropLast, e1.symm, ?_, ?_⟩
    · intro hc
      apply hne
      rw [← e1, ← e2, hdl, hc]
    · rw [hdl, e2, C107_spelling E o keys an sigalg ht (tok d' hd'), h]
  · intro n
    have hb' : b64d (t ++ List.replicate (n + 2) 61) = .ok sig := by
      obtain ⟨d, ⟨k, e, ha, hp⟩ | ⟨k, e, -, hk, -⟩, hdec⟩ := (C03_accepts_iff _ _).mp hb
      · have : k = 0 := by
          cases k with
          | zero => rfl
          | succ k => exact absurd (by simp [e, List.replicate_succ]) hn
        subst this
        simp only [List.replicate_zero, List.append_nil] at e
        subst e
        exact (C03_accepts_iff _ _).mpr ⟨t, .inl ⟨n + 2, rfl, ha, by unfold PadOk at hp ⊢; omega⟩, hdec⟩
      · exact absurd (by cases k <;> simp_all [List.replicate_succ]) hn
    rw [C107_spelling E o keys an sigalg ht (tok _ hb'), h]

/-- Under an HS algorithm these are the only changes: two accepted tokens with the same first two segments
and the same secret decode to the same signature; spelled without `=` they differ at most in the last
character. -/
theorem C107_hmac (E : Env) (o o' : Jwx) (keys keys' : List Key) (an an' : Bool) (sa sa' m m' : PyVal) (k k' : Key)
    (d : HashAlg) (name : String) (hn : SupportedAlg name (.hs d)) {jws jws' s0 s1 s2 s2' : Bytes} {hdr hdr' : PyDict}
    {p p' sig sig' : Bytes} (ht : Token jws s0 s1 (.dict hdr) p sig) (ht' : Token jws' s0 s1 (.dict hdr') p' sig')
    (hal : PyDict.get? hdr "alg" = some (.str name))
    (hj : jws = s0 ++ 46 :: s1 ++ 46 :: s2) (hj' : jws' = s0 ++ 46 :: s1 ++ 46 :: s2')
    (h : (o.verifyVerbose E jws keys an sa).1 = .ok (m, some k))
    (h' : (o'.verifyVerbose E jws' keys' an' sa').1 = .ok (m', some k')) (hk : k.key = k'.key) :
    sig = sig' ∧ m = m' ∧ ((61 : UInt8) ∉ s2 → (61 : UInt8) ∉ s2' →
      s2.length = s2'.length ∧ s2.dropLast = s2'.dropLast) := by
  obtain ⟨hh, rfl⟩ := token_seg_unique ht ht'
  obtain rfl := PyVal.dict.inj hh
  obtain ⟨s, e1, e2⟩ := C17_hmac E o jws keys an sa m k d name hn h s0 s1 hdr p sig ht hal
  obtain ⟨s', e1', e2'⟩ := C17_hmac E o' jws' keys' an' sa' m' k' d name hn h' s0 s1 hdr p sig' ht' hal
  rw [hk, e1'] at e1
  cases e1
  obtain rfl : sig = sig' := e2.trans e2'.symm
  have hM : ∀ {o : Jwx} {jws : Bytes} {keys an sa m k}, Token jws s0 s1 (.dict hdr) p sig →
      (o.verifyVerbose E jws keys an sa).1 = .ok (m, some k) → Message E.jsonBytes hdr p m := by
    intro o jws keys an sa m k ht h
    obtain ⟨_, _, hdr', _, _, _, _, _, _, ht', -, -, -, -, -, -, -, hM⟩ := (verifyVerbose_iff _ _ _ _ _ _ _ _).mp h
    obtain ⟨rfl, rfl, hh, rfl, rfl⟩ := token_unique ht ht'
    obtain rfl := PyVal.dict.inj hh
    exact hM
  refine ⟨rfl, message_unique (hM ht h) (hM ht' h'), fun n1 n2 => ?_⟩
  obtain ⟨t, e, hb, -⟩ := ht.text
  obtain ⟨t', e', hb', -⟩ := ht'.text
  rw [hj] at e
  rw [hj'] at e'
  obtain rfl := (List.cons.inj (List.append_cancel_left e)).2
  obtain rfl := (List.cons.inj (List.append_cancel_left e')).2
  exact ⟨(C04_same_bytes _ _ _ n1 n2 hb hb').1, (C04_same_bytes _ _ _ n1 n2 hb hb').2.1⟩

/-- Zero bytes between the two halves of an ECDSA signature change nothing. -/
theorem C107_ecdsa_zeros (E : Env) (o : Jwx) (keys : List Key) (an : Bool) (sigalg : PyVal)
    {jws jws' s0 s1 : Bytes} {hdr : PyDict} {p rb sb : Bytes} {n : Nat} {name : String} {d : HashAlg} {C : NistCurve}
    (hn : SupportedAlg name (.es d)) (hal : PyDict.get? hdr "alg" = some (.str name)) (hC : CurveFor d C)
    (hr : rb.length = C.bytes) (ht : Token jws s0 s1 (.dict hdr) p (rb ++ sb))
    (ht' : Token jws' s0 s1 (.dict hdr) p (rb ++ List.replicate n 0 ++ sb)) :
    (o.verifyVerbose E jws' keys an sigalg).1 = (o.verifyVerbose E jws keys an sigalg).1 := by
  refine verify_sig_congr E o keys an sigalg ht ht' ?_
  intro v a hv ha ks
  have hv' : v = .str name := by
    simp only [PyVal.getItem, hal, Except.ok.injEq] at hv
    exact hv.symm
  subst hv'
  rw [(signerOf_iff (.str name) (.es d)).mpr ⟨name, rfl, hn⟩] at ha
  simp only [Option.some.injEq] at ha
  subst ha
  have hsame : ∀ ka, SigAlg.verify E (.es d) (s0 ++ 46 :: s1) (rb ++ List.replicate n 0 ++ sb) ka =
      SigAlg.verify E (.es d) (s0 ++ 46 :: s1) (rb ++ sb) ka := by
    intro ka
    unfold SigAlg.verify
    simp only [(esCurve_iff d C).mpr hC, Bind.bind, Except.bind, C.C71_padded _ _ _ _ _ hr]
    have : C.sigInRange (rb ++ List.replicate n 0 ++ sb) = C.sigInRange (rb ++ sb) := by
      unfold NistCurve.sigInRange NistCurve.bytes2int
      rw [List.append_assoc, List.take_left' hr, List.drop_left' hr, List.take_left' hr,
        List.drop_left' hr, bytesToNat_replicate_zero]
    rw [this]
  induction ks with
  | nil => rfl
  | cons k ks ih =>
    unfold verifyLoop
    rw [ih, show SigAlg.verify E (.es d) (s0 ++ 46 :: s1) (rb ++ List.replicate n 0 ++ sb) =
      SigAlg.verify E (.es d) (s0 ++ 46 :: s1) (rb ++ sb) from funext hsame]

theorem pubPoint_unique {k : Key} {P Q : EPt} (h : PubPoint k P) (h' : PubPoint k Q) : P = Q := by
  rcases h with ⟨crv, x, y, d, c, i, j, hm, hx, hy, -, -, rfl⟩ | ⟨hn, v, hk, h⟩ <;>
  rcases h' with ⟨crv', x', y', d', c', i', j', hm', hx', hy', -, -, rfl⟩ | ⟨hn', v', hk', h'⟩
  · rw [hm] at hm'
    cases hm'
    rw [hx] at hx'
    rw [hy] at hy'
    cases hx'
    cases hy'
    rfl
  · exact absurd ⟨_, _, _, _, _, hm⟩ hn'
  · exact absurd ⟨_, _, _, _, _, hm'⟩ hn
  · rw [hk] at hk'
    cases hk'
    rcases h with ⟨f, rfl⟩ | ⟨a, b, l, rfl, rfl⟩ | ⟨a, b, l, i, j, rfl, ha, hb, rfl⟩ <;>
    rcases h' with ⟨f', rfl⟩ | ⟨a', b', l', e, rfl⟩ | ⟨a', b', l', i', j', e, ha', hb', rfl⟩
    all_goals first | rfl | (subst e; simp [PyVal.truthy] at f) | (simp [PyVal.truthy] at f') | cases e
    · rfl
    · rw [ha] at ha'
      rw [hb] at hb'
      cases ha'
      cases hb'
      rfl

/-- Under an ES algorithm anyone who holds an accepted token makes another signature for it: `N - s` for `s`.
The new token is accepted with the same key and gives the same message. -/
theorem C107_ecdsa_negated (E : Env) (o : Jwx) (k : Key) (an : Bool) (sigalg m : PyVal)
    {jws s0 s1 : Bytes} {hdr : PyDict} {p sig : Bytes} {name : String} {d : HashAlg} {C : NistCurve} {priv : Nat}
    (hn : SupportedAlg name (.es d)) (hal : PyDict.get? hdr "alg" = some (.str name)) (hC : CurveFor d C)
    (hp : PubPoint k (C.publicKeyFor priv)) (ht : Token jws s0 s1 (.dict hdr) p sig)
    (h : (o.verifyVerbose E jws [k] an sigalg).1 = .ok (m, some k)) :
    let sig' := sig.take C.bytes ++ C.int2bytes (C.N - bytesToNat (sig.drop C.bytes))
    sig' ≠ sig ∧ (o.verifyVerbose E (s0 ++ 46 :: s1 ++ 46 :: b64e sig') [k] an sigalg).1 = .ok (m, some k) := by
  intro sig'
  obtain ⟨s0', s1', hdr', p', sg, name', a, kid, l, ht', hal', hsup, hown, hsa, heff, hkid, hfa, hm⟩ :=
    (verifyVerbose_iff _ _ _ _ _ _ _ _).mp h
  obtain ⟨rfl, rfl, hh, rfl, rfl⟩ := token_unique ht ht'
  obtain rfl := PyVal.dict.inj hh
  rw [hal] at hal'
  obtain rfl : name = name' := by simpa using hal'
  obtain rfl : SigAlg.es d = a := by
    have h1 := (signerOf_iff (.str name) (.es d)).mpr ⟨name, rfl, hn⟩
    rw [(signerOf_iff (.str name) a).mpr ⟨name, rfl, hsup⟩] at h1
    simpa using h1.symm
  obtain ⟨pre, post, hl, hsuit, hacc, hpre⟩ := hfa
  obtain ⟨C', P, hC', hP, hv⟩ := hacc
  obtain rfl : C = C' := by
    rw [← esCurve_iff] at hC hC'
    rw [hC] at hC'
    simpa using hC'
  obtain rfl := pubPoint_unique hp hP
  have hneg := C.C71_negated (curveFor_sound hC) priv _ sig hv
  refine ⟨hneg.2 ?_, (verifyVerbose_iff _ _ _ _ _ _ _ _).mpr ⟨s0, s1, hdr, p, sig', name, .es d, kid, [k],
    ?_, hal, hn, hown, hsa, .inl ⟨by simp, rfl⟩, hkid, ⟨[], [], rfl, hsuit, ?_, by simp⟩, hm⟩⟩
  · have h1 : nistCurve 256 = .ok P256 := by decide +kernel
    have h2 : nistCurve 384 = .ok P384 := by decide +kernel
    have h3 : nistCurve 521 = .ok P521 := by decide +kernel
    cases d <;> simp only [CurveFor, h1, h2, h3, Except.ok.injEq] at hC <;> subst hC <;> decide +kernel
  · exact ⟨⟨_, rfl, C01_roundtrip _, fun hc => (b64d_chars (C01_roundtrip _) _ hc).2 rfl⟩, ht.no_dot, ht.header, ht.payload⟩
  · exact ⟨C, _, hC, hp, hneg.1⟩

/-! ### C108 -/

namespace Spec

/-- The length of a signature by key `k`: the digest, twice the field size of the curve, or the modulus. -/
def SigSize (k : Key) (n : Nat) : SigAlg → Prop
  | .hs .sha256 => n = 32
  | .hs .sha384 => n = 48
  | .hs .sha512 => n = 64
  | .es .sha256 => n = 64
  | .es .sha384 => n = 96
  | .es .sha512 => n = 132
  | .rs _ | .ps _ => ∃ r, k.key = .rsa r ∧ 256 ^ (n - 1) ≤ r.n.toNat ∧ r.n.toNat < 256 ^ n
  | _ => False

end Spec

/-- What `sign_compact` returns consists of two dots and base64url segments without `=`; the length of the last
depends on the algorithm and the key only. -/
theorem C108_size {E : Env} (hE : Standard E) (o : Jwx) (keys : List Key) (prot : PyDict) (rnd : Nat) (t : String)
    (h : (o.signCompact E keys prot rnd).1 = .ok t) :
    ∃ s0 s1 s2, utf8Encode t = s0 ++ 46 :: s1 ++ 46 :: s2 ∧ (∀ c ∈ s0 ++ s1 ++ s2, c ∈ urlAlphabet) ∧
      ((AlgFor o keys (.str "none") ∧ s2 = []) ∨
       ∃ name a k l kid n, AlgFor o keys (.str name) ∧ SupportedAlg name a ∧ EffKeys o keys l ∧ SignKid o kid ∧
        FirstSigner a name kid l k ∧ SigSize k n a ∧ s2.length = (4 * n + 2) / 3) := by
  obtain ⟨alg, key, s0, s1, hA, h0, h1, ⟨rfl, -, ht⟩ | ⟨name, a, k, l, kid, ka, sig, rfl, hsup, -, he, hi, hfs, hka, hs, ht⟩⟩ :=
    signCompact_ok h
  all_goals
    obtain ⟨x, rfl⟩ := b64encodeItem_b64e h0
    obtain ⟨y, rfl⟩ := b64encodeItem_b64e h1
  · refine ⟨_, _, [], by simpa using ht, ?_, .inl ⟨hA, rfl⟩⟩
    intro c hc
    simp only [List.append_nil, List.mem_append] at hc
    rcases hc with hc | hc
    · exact (C02_rfc4648 x).1 c hc
    · exact (C02_rfc4648 y).1 c hc
  refine ⟨_, _, _, ht, ?_, .inr ⟨name, a, k, l, kid, sig.length, hA, hsup, he, hi, hfs, ?_, (C02_length sig).1⟩⟩
  · intro c hc
    simp only [List.mem_append, or_assoc] at hc
    rcases hc with hc | hc | hc
    · exact (C02_rfc4648 x).1 c hc
    · exact (C02_rfc4648 y).1 c hc
    · exact (C02_rfc4648 sig).1 c hc
  have hrsa : ∀ r, ka = .obj (.rsa r) → k.key = .rsa r := by
    rintro r rfl
    by_cases hec : IsEc k
    · obtain ⟨crv, x, y, d, c, hm⟩ := hec
      simp only [Key.getKey, hm, if_true] at hka
      split at hka <;> simp at hka
    · rw [getKey_not_ec hec] at hka
      simpa using hka
  have hmod : ∀ {r : RsaKey} {c m : Nat}, Real.rsaPriv r c = .ok m →
      256 ^ (Real.modLen r - 1) ≤ r.n.toNat ∧ r.n.toNat < 256 ^ Real.modLen r := by
    intro r c m hp
    have hc : c < Real.modulus r := by
      unfold Real.rsaPriv at hp
      split at hp
      · assumption
      · simp at hp
    have h0 : 0 < Real.modLen r := by
      rcases Nat.eq_zero_or_pos (Real.modLen r) with h | h
      · have := Real.lt_modLen hc
        rw [h] at this
        unfold Real.modLen Real.bitLen at h
        split at h <;> omega
      · exact h
    refine ⟨?_, ?_⟩
    · by_contra hlt
      have := Real.lt_modulus h0 (x := Real.modulus r) (by unfold Real.modulus; omega)
      omega
    · have := Real.lt_modLen (k := r) (x := Real.modulus r - 1) (by omega)
      have h2 := Real.lt_bitLen (Real.modulus r)
      have h3 : 2 ^ Real.bitLen (Real.modulus r) ≤ 256 ^ Real.modLen r := by
        rw [show (256 : Nat) = 2 ^ 8 by norm_num, ← pow_mul]
        apply Nat.pow_le_pow_right (by norm_num)
        unfold Real.modLen
        omega
      exact lt_of_lt_of_le h2 h3
  obtain ⟨f, hf⟩ := hE.rsa
  have hes : ∀ {d C}, CurveFor d C → a = .es d → sig.length = 2 * C.bytes := by
    rintro d C hC rfl
    simp only [SigAlg.sign, Bind.bind, (esCurve_iff d C).mpr hC, Except.bind] at hs
    split at hs
    · simp at hs
    split at hs
    · rename_i r hr
      subst hs
      exact (NistCurve.C52_roundtrip (curveFor_sound hC) _ _ _ _ _ _ hr).2
    · simp at hs
  have h1 : nistCurve 256 = .ok P256 := by decide +kernel
  have h2 : nistCurve 384 = .ok P384 := by decide +kernel
  have h3 : nistCurve 521 = .ok P521 := by decide +kernel
  have hhs : ∀ {d}, a = .hs d → sig.length = d.size := by
    rintro d rfl
    simp only [SigAlg.sign, Bind.bind] at hs
    obtain ⟨sec, -, h⟩ := bind_ok_iff.mp hs
    obtain rfl := Except.ok.inj h
    exact hE.shaLaw.hmac_length _ _ _
  have hrs : ∀ {d}, a = .rs d ∨ a = .ps d → ∃ r, k.key = .rsa r ∧ 256 ^ (sig.length - 1) ≤ r.n.toNat ∧
      r.n.toNat < 256 ^ sig.length := by
    intro d hd
    rcases hd with rfl | rfl
    all_goals
      simp only [SigAlg.sign, Bind.bind] at hs
      obtain ⟨r, hr, h⟩ := bind_ok_iff.mp hs
      unfold rsaKeyArg at hr
      split at hr
      swap
      · simp at hr
      obtain rfl := Except.ok.inj hr
      refine ⟨_, hrsa _ rfl, ?_⟩
      rw [hf] at h
    · obtain ⟨em, -, h⟩ := bind_ok_iff.mp (show Real.sign15 _ _ _ = _ from h)
      obtain ⟨s, hp, h⟩ := bind_ok_iff.mp h
      obtain rfl := Except.ok.inj h
      rw [natToBytesW_length]; exact hmod hp
    · obtain ⟨em, -, h⟩ := bind_ok_iff.mp (show Real.signPss _ _ _ _ = _ from h)
      obtain ⟨s, hp, h⟩ := bind_ok_iff.mp h
      obtain rfl := Except.ok.inj h
      rw [natToBytesW_length]; exact hmod hp
  cases hsup
  · exact hhs rfl
  · exact hhs rfl
  · exact hhs rfl
  · exact hrs (.inl rfl)
  · exact hrs (.inl rfl)
  · exact hrs (.inl rfl)
  · exact hes (d := .sha256) (C := P256) h1 rfl
  · exact hes (d := .sha384) (C := P384) h2 rfl
  · exact hes (d := .sha512) (C := P521) h3 rfl
  · exact hrs (.inr rfl)
  · exact hrs (.inr rfl)
  · exact hrs (.inr rfl)

/-! ### Cases -/

theorem exFlat_load : jsonLoads exFlat = .ok (.dict [("payload", .str "e30"),
    ("protected", .str "eyJhbGciOiJIUzI1NiJ9"),
    ("signature", .str "a2V5SmhiR2NpT2lKSVV6STFOaUo5LmUzMAAAAAAAAAA")]) := by decide +kernel

/-- The flattened token of C23 and its compact form. -/
example : (({} : Jwx).verifyCompact toyEnv (compactToken "eyJhbGciOiJIUzI1NiJ9" "e30"
      "a2V5SmhiR2NpT2lKSVV6STFOaUo5LmUzMAAAAAAAAAA") [exKey] false .none).1 = .ok (.dict []) ∧
    PlainHeader toyEnv "eyJhbGciOiJIUzI1NiJ9" :=
  (C106_flat toyEnv {} [exKey] (by simp) false .none (.dict []) _ _ _ exFlat _ exFlat_load rfl rfl rfl rfl rfl).mp
    exFlat_ok

/-- The other direction, with an object that would refuse the compact token. -/
example : (({ dict := [("alg", .str "RS256")] } : Jwx).verifyJson toyEnv exFlat [exKey] false .none).1 =
    .ok (.dict []) :=
  (C106_flat toyEnv _ [exKey] (by simp) false .none (.dict []) _ _ _ exFlat _ exFlat_load rfl rfl rfl rfl rfl).mpr
    ((C106_flat toyEnv {} [exKey] (by simp) false .none (.dict []) _ _ _ exFlat _ exFlat_load rfl rfl rfl rfl rfl).mp
      exFlat_ok)

/-- A header with a member `self`: accepted in compact form only. -/
example : PyDict.get? [("alg", .str "none"), ("self", .int 1)] "self" ≠ (none : Option PyVal) ∧
    ¬ PlainHeader toyEnv "eyJhbGciOiJub25lIiwic2VsZiI6MX0" ∧
    (({} : Jwx).verifyCompact toyEnv (compactToken "eyJhbGciOiJub25lIiwic2VsZiI6MX0" "e30" "") [exKey] true
      .none).1 = .ok (.dict []) := by
  refine ⟨by decide, fun h => ?_, by decide +kernel⟩
  exact absurd (h (ascii "{\"alg\":\"none\",\"self\":1}") "{\"alg\":\"none\",\"self\":1}"
    [("alg", .str "none"), ("self", .int 1)] (by decide +kernel) (by decide +kernel) (by decide +kernel)).1 (by decide)

/-- Two signatures. -/
def exTwo : String :=
  "{\"payload\": \"e30\", \"signatures\": [{\"protected\": \"eyJhbGciOiJIUzI1NiJ9\", " ++
  "\"signature\": \"a2V5SmhiR2NpT2lKSVV6STFOaUo5LmUzMAAAAAAAAAA\"}, {\"protected\": \"eyJhbGciOiJIUzI1NiJ9\", " ++
  "\"signature\": \"a2V5SmhiR2NpT2lKSVV6STFOaUo5LmUzMAAAAAAAAAA\"}]}"

theorem exTwo_load : jsonLoads exTwo = .ok (.dict [("payload", .str "e30"), ("signatures",
    .list [entryOf "eyJhbGciOiJIUzI1NiJ9" "a2V5SmhiR2NpT2lKSVV6STFOaUo5LmUzMAAAAAAAAAA",
      entryOf "eyJhbGciOiJIUzI1NiJ9" "a2V5SmhiR2NpT2lKSVV6STFOaUo5LmUzMAAAAAAAAAA"])]) := by decide +kernel

example : (({} : Jwx).verifyJson toyEnv exTwo [exKey] false .none).1 = .ok (.dict []) := by
  have h1 := (C106_flat toyEnv {} [exKey] (by simp) false .none (.dict []) _ _ _ exFlat _ exFlat_load rfl rfl rfl
    rfl rfl).mp exFlat_ok
  exact (C106_general toyEnv {} [exKey] (by simp) false .none (.dict []) "e30" exTwo _
    [("eyJhbGciOiJIUzI1NiJ9", "a2V5SmhiR2NpT2lKSVV6STFOaUo5LmUzMAAAAAAAAAA"),
     ("eyJhbGciOiJIUzI1NiJ9", "a2V5SmhiR2NpT2lKSVV6STFOaUo5LmUzMAAAAAAAAAA")]
    exTwo_load rfl rfl).mpr ⟨[.dict [], .dict []], .cons h1 (.cons h1 .nil),
      .inr ⟨[], [.dict []], rfl, by simp, by simp, by decide⟩⟩

theorem exToken_token : Token exToken (ascii "eyJhbGciOiJIUzI1NiJ9") (ascii "e30") (.dict [("alg", .str "HS256")])
    (ascii "{}") (ascii "keyJhbGciOiJIUzI1NiJ9.e30" ++ [0, 0, 0, 0, 0, 0, 0]) :=
  ⟨⟨ascii "a2V5SmhiR2NpT2lKSVV6STFOaUo5LmUzMAAAAAAAAAA", by decide, by decide +kernel, by decide⟩,
    ⟨by decide, by decide⟩, ⟨ascii "{\"alg\":\"HS256\"}", "{\"alg\":\"HS256\"}", by decide +kernel,
    by decide +kernel, by decide +kernel⟩, by decide +kernel⟩

/-- The last character of the token of C12 replaced, and `=` signs added to it. -/
example := C107_companions toyEnv {} [exKey] false .none (.dict []) exKey
  (s2 := ascii "a2V5SmhiR2NpT2lKSVV6STFOaUo5LmUzMAAAAAAAAAA") exToken_token (by decide) (by decide) (by decide)
  exToken_ok

example := C107_hmac toyEnv {} {} [exKey] [exKey] false false .none .none (.dict []) (.dict []) exKey exKey .sha256
  "HS256" .HS256 (s2 := ascii "a2V5SmhiR2NpT2lKSVV6STFOaUo5LmUzMAAAAAAAAAA")
  (s2' := ascii "a2V5SmhiR2NpT2lKSVV6STFOaUo5LmUzMAAAAAAAAAA") exToken_token exToken_token rfl (by decide)
  (by decide) exToken_ok exToken_ok rfl

/-- The public key of RFC 7515 A.3. -/
def exEsKey : Key where
  kty := .str "EC"
  alg := .str ""
  use := .str ""
  kid := .str ""
  key := .val .none
  x5c := .str ""
  x5t := .str ""
  x5u := .str ""
  extra := []
  hash := none
  mat := .ec (.str "P-256")
    (.int 57807358241436249728379122087876380298924820027722995515715270765240753673285)
    (.int 90436541859143682268950424386863654389577770182238183823381687388274600502701)
    (.str "") (.val .none)

/-- A signature by that key of `{}` under ES256, with the nonce 2. -/
def exEsSig : Bytes := [124, 242, 123, 24, 141, 3, 79, 126, 138, 82, 56, 3, 4, 181, 26, 195, 192, 137, 105, 226, 119, 242,
  27, 53, 166, 11, 72, 252, 71, 102, 153, 120, 209, 133, 190, 70, 221, 93, 195, 216, 201, 72, 216, 40, 147, 72, 119, 132,
  161, 143, 37, 61, 75, 192, 140, 240, 61, 203, 42, 208, 114, 8, 91, 142]

theorem exEs_token (sig : Bytes) : Token (ascii "eyJhbGciOiJFUzI1NiJ9" ++ 46 :: ascii "e30" ++ 46 :: b64e sig)
    (ascii "eyJhbGciOiJFUzI1NiJ9") (ascii "e30") (.dict [("alg", .str "ES256")]) (ascii "{}") sig :=
  ⟨⟨_, rfl, C01_roundtrip _, fun hc => (b64d_chars (C01_roundtrip _) _ hc).2 rfl⟩,
    ⟨by decide, by decide⟩, ⟨ascii "{\"alg\":\"ES256\"}", "{\"alg\":\"ES256\"}", by decide +kernel,
    by decide +kernel, by decide +kernel⟩, by decide +kernel⟩

theorem exEs_curve : CurveFor .sha256 P256 := by
  show nistCurve 256 = .ok P256
  decide +kernel

theorem exEs_pub : PubPoint exEsKey
    (P256.publicKeyFor 64502400493437371358766275827725703314178640739253280897215993954599262549170) := by
  have h : P256.publicKeyFor 64502400493437371358766275827725703314178640739253280897215993954599262549170 =
      some (57807358241436249728379122087876380298924820027722995515715270765240753673285,
        90436541859143682268950424386863654389577770182238183823381687388274600502701) := by decide +kernel
  rw [h]
  exact .inl ⟨_, _, _, _, _, _, _, rfl, rfl, rfl, by decide, by decide, rfl⟩

theorem exEs_ok : (({} : Jwx).verifyVerbose stdEnv (ascii "eyJhbGciOiJFUzI1NiJ9" ++ 46 :: ascii "e30" ++ 46 :: b64e exEsSig)
    [exEsKey] false .none).1 = .ok (.dict [], some exEsKey) := by
  refine (verifyVerbose_iff _ _ _ _ _ _ _ _).mpr ⟨_, _, _, _, _, "ES256", .es .sha256, .none, [exEsKey],
    exEs_token _, rfl, .ES256, by simp [PyDict.get?], by simp [none_truthy], .inl ⟨by simp, rfl⟩,
    .inr (.inr ⟨by simp [PyDict.get?], rfl, rfl⟩),
    ⟨[], [], rfl, ⟨.inr (.inl rfl), by simp [none_truthy], by decide⟩, ⟨P256, _, exEs_curve, exEs_pub, ?_⟩, by simp⟩,
    ⟨.str "{}", .inl ⟨"{}", by decide, rfl⟩, .inr ⟨.inl rfl, .inl (.inl ⟨"{}", rfl, by decide +kernel⟩)⟩⟩⟩
  decide +kernel

example := C107_ecdsa_negated stdEnv {} exEsKey false .none (.dict []) .ES256 rfl exEs_curve exEs_pub
  (exEs_token exEsSig) exEs_ok

example := C107_ecdsa_zeros stdEnv {} [exEsKey] false .none (n := 5) .ES256 rfl exEs_curve
  (by decide : (exEsSig.take 32).length = P256.bytes) (exEs_token (exEsSig.take 32 ++ exEsSig.drop 32))
  (exEs_token (exEsSig.take 32 ++ List.replicate 5 0 ++ exEsSig.drop 32))

/-- `{}` under HS256 with the secret `k`: 43 characters. -/
example := C108_size stdEnv_standard { msg := .str "{}", dict := [("alg", .str "HS256")] } [exKey] [] 0
  "eyJhbGciOiJIUzI1NiJ9.e30.CYG8qKSuUG1cj5ZM7YUE3kRjuUjOfiv14zgdYx-7pLo" (by decide +kernel)

end Verif
