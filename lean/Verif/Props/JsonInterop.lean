import Verif.Props.JwsOutbound
import Verif.Props.JwsJson
/-
C138: JSON serializations of signatures and other implementations.
-/

namespace Verif

namespace Spec

/-- The encoded protected header of an entry is that of the members `prot`. -/
def ProtectedMembers (ph : String) (prot : PyDict) : Prop :=
  ∃ hb hs, b64d (utf8Encode ph) = .ok hb ∧ utf8Decode hb = .ok hs ∧ jsonLoads hs = .ok (.dict prot)

/-- The entry signs the payload text `pl` by RFC 7515 section 5.2 under a key of the caller: the algorithm is in the protected header,
the `kid` in either header; `m` is the message. -/
def RfcEntry (E : Env) (keys : List Key) (pl : String) (s m : PyVal) : Prop :=
  ∃ ph sg prot un p sig name a, SigEntry s ph sg un ∧
    Token (utf8Encode ph ++ 46 :: utf8Encode pl ++ 46 :: utf8Encode sg) (utf8Encode ph) (utf8Encode pl) (.dict prot) p sig ∧
    Message E.jsonBytes prot p m ∧ PyDict.get? prot "alg" = some (.str name) ∧ SupportedAlg name a ∧
    ∃ k ∈ keys, Suitable a name ((Merged prot un "kid").getD .none) k ∧ RfcSigned k (utf8Encode ph ++ 46 :: utf8Encode pl) sig a

/-- The headers of the entry have no member `self`, an embedded `jwk` is usable, and the algorithm is not one with elliptic curves. -/
def TameEntry (E : Env) (s : PyVal) : Prop :=
  ∀ ph sg un prot, SigEntry s ph sg un → ProtectedMembers ph prot →
    Merged prot un "self" = none ∧ (∀ v, Merged prot un "jwk" = some v → ∃ k, EmbeddedKey E v k) ∧
    ∀ name h, PyDict.get? prot "alg" = some (.str name) → ¬ SupportedAlg name (.es h)

/-- What is asked of the headers and keys for one signature. -/
structure HeaderOut (o : Jwx) (keys : List Key) (p : PyDict) (u : PyVal) (name : String) (a : SigAlg) : Prop where
  alg : EntryAlg o p (.str name)
  sup : SupportedAlg name a
  json : (PyVal.dict p).jsonable = true
  unprot : u.truthy = false ∨ ∃ d, u = .dict d ∧ u.jsonable = true
  kids : ∀ k ∈ keys, k.kid.jsonable = true
  own : ∀ kid, ∀ k ∈ keys, SignSuitable a name kid k → OwnKey k a

/-- The entry with unprotected header `u` is a signature by RFC 7515 section 7.2 over the payload text: the encoded protected header, with
the algorithm and the members asked for, and the encoded signature. -/
def RfcMadeEntry (keys : List Key) (pl : String) (name : String) (a : SigAlg) (p : PyDict) (u s : PyVal) : Prop :=
  ∃ ph sg un hs hdr sig, SigEntry s ph sg un ∧ (un = if u.truthy then members u else []) ∧
    IsB64Url (utf8Encode hs) (utf8Encode ph) ∧ jsonLoads hs = .ok (.dict hdr) ∧ PyDict.get? hdr "alg" = some (.str name) ∧
    (∀ n, n ≠ "alg" → n ≠ "kid" → n ≠ "typ" → PyDict.get? hdr n = PyDict.get? p n) ∧
    IsB64Url sig (utf8Encode sg) ∧ ∃ k ∈ keys, RfcMade k (utf8Encode ph ++ 46 :: utf8Encode pl) sig a

end Spec

open Spec

theorem listed_same {d : PyDict} {l l' : List PyVal} (h : Listed d l) (h' : Listed d l') : l = l' := by
  rcases h with h | ⟨rfl, h | h⟩ | ⟨h, rfl⟩ <;> rcases h' with h' | ⟨rfl, h' | h'⟩ | ⟨h', rfl⟩ <;> rw [h] at h' <;> first | rfl | cases h'
  rfl

theorem forall₂_iff_mem {α β : Type} {R S : α → β → Prop} {l : List α} {m : List β} (h : ∀ x ∈ l, ∀ y, R x y ↔ S x y) :
    List.Forall₂ R l m ↔ List.Forall₂ S l m := by
  induction l generalizing m with
  | nil => cases m <;> simp
  | cons x l ih =>
    cases m with
    | nil => simp
    | cons y m => simp only [List.forall₂_cons, h x (by simp) y, ih fun z hz => h z (by simp [hz])]

theorem rfcEntry_iff {E : Env} (hE : Standard E) {keys : List Key} (hne : keys ≠ [])
    (hsh : ∀ k ∈ keys, ∀ a name kid, (∀ h, a ≠ .es h) → Suitable a name kid k → Shaped k a) (pl : String) {s : PyVal}
    (ht : TameEntry E s) (m : PyVal) : EntryVerified E keys false .none (.str pl) s m ↔ RfcEntry E keys pl s m := by
  constructor
  · rintro ⟨ph, pl', sg, prot, un, p, sig, h1, h2, h3, h4, -, -, ⟨h, -⟩ | ⟨name, a, l, k, h5, h6, -, hl, hf⟩⟩
    · cases h
    cases h2
    obtain rfl : l = keys := by
      rcases hl with ⟨-, h⟩ | ⟨h, -⟩
      · exact h
      · exact absurd h hne
    obtain ⟨pre, post, rfl, hs, hA, -⟩ := hf
    obtain ⟨-, -, hes⟩ := ht _ _ _ _ h1 h3.header
    have hk : k ∈ pre ++ k :: post := by simp
    exact ⟨ph, sg, prot, un, p, sig, name, a, h1, h3, h4, h5, h6, k, hk, hs,
      (accepts_rfc hE (hsh k hk a name _ (by rintro h rfl; exact hes _ _ h5 h6) hs) _ _).mp hA⟩
  · rintro ⟨ph, sg, prot, un, p, sig, name, a, h1, h3, h4, h5, h6, k, hk, hs, hR⟩
    obtain ⟨g1, g2, hes⟩ := ht _ _ _ _ h1 h3.header
    have hna : ∀ h, a ≠ .es h := by rintro h rfl; exact hes _ _ h5 h6
    obtain ⟨k', hf⟩ := firstAccepting_of_mem (E := E) (fun x hx hs hn => softFail_std hE (hsh x hx a name _ hna hs) hn) hk hs
      ((accepts_rfc hE (hsh k hk a name _ hna hs) _ _).mpr hR)
    exact ⟨ph, pl, sg, prot, un, p, sig, h1, rfl, h3, h4, g1, g2,
      .inr ⟨name, a, keys, k', h5, h6, by simp [PyVal.truthy], .inl ⟨hne, rfl⟩, hf⟩⟩

/-- **C138.** A JSON serialization, general or flattened, with HMAC and RSA algorithms: it is accepted exactly if every entry has a
signature that is valid by the standard under one of the caller's keys, over its own protected header and the payload as sent; the
messages must agree. -/
theorem C138_json {E : Env} (hE : Standard E) (o : Jwx) {jws : String} {d : PyDict} {pl : String} {l : List PyVal} {keys : List Key}
    (hne : keys ≠ []) (hsh : ∀ k ∈ keys, ∀ a name kid, (∀ h, a ≠ .es h) → Suitable a name kid k → Shaped k a)
    (hd : jsonLoads jws = .ok (.dict d)) (hp : PyDict.get? d "payload" = some (.str pl)) (hl : Listed d l)
    (ht : ∀ s ∈ l, TameEntry E s) (m : PyVal) :
    (o.verifyJson E jws keys false .none).1 = .ok m ↔ ∃ ms, List.Forall₂ (RfcEntry E keys pl) l ms ∧ Combined ms m := by
  rw [C23_exact]
  constructor
  · rintro ⟨d', p', l', ms, h1, h2, h3, h4, h5⟩
    rw [hd] at h1
    cases h1
    rw [hp] at h2
    cases h2
    obtain rfl := listed_same hl h3
    exact ⟨ms, (forall₂_iff_mem fun s hs m => rfcEntry_iff hE hne hsh pl (ht s hs) m).mp h4, h5⟩
  · rintro ⟨ms, h4, h5⟩
    exact ⟨d, _, l, ms, hd, hp, hl, (forall₂_iff_mem fun s hs m => rfcEntry_iff hE hne hsh pl (ht s hs) m).mpr h4, h5⟩

/-- **C138.** Departure from RFC 7515 section 7.2.1: an entry without protected header, or with the algorithm in the unprotected header
only, is never accepted, whatever the keys and the other arguments. -/
theorem C138_unprotected (E : Env) (o : Jwx) {jws : String} {d : PyDict} {l : List PyVal} (hd : jsonLoads jws = .ok (.dict d)) (hl : Listed d l)
    {s : PyDict} (hs : PyVal.dict s ∈ l)
    (hu : PyDict.get? s "protected" = none ∨
      ∃ ph, PyDict.get? s "protected" = some (.str ph) ∧ ∀ prot, ProtectedMembers ph prot → PyDict.get? prot "alg" = none)
    (keys : List Key) (an : Bool) (sigalg m : PyVal) : (o.verifyJson E jws keys an sigalg).1 ≠ .ok m := by
  intro h
  obtain ⟨d', p', l', ms, h1, h2, h3, h4, -⟩ := (C23_exact _ _ _ _ _ _ _).mp h
  rw [hd] at h1
  cases h1
  obtain rfl := listed_same hl h3
  obtain ⟨m', ph, pl, sg, prot, un, p, sig, ⟨s', e1, e2, -⟩, -, e3, -, -, -, hc⟩ : ∃ m', EntryVerified E keys an sigalg p' (.dict s) m' := by
    clear h h3 hl hd h2
    induction h4 with
    | nil => cases hs
    | cons h1 h2 ih =>
      rcases List.mem_cons.mp hs with rfl | hs
      · exact ⟨_, h1⟩
      · exact ih hs
  cases e1
  have halg : ∃ v, PyDict.get? prot "alg" = some v := by
    rcases hc with ⟨-, v, h, -⟩ | ⟨name, -, -, -, h, -⟩ <;> exact ⟨_, h⟩
  obtain ⟨v, hv⟩ := halg
  rcases hu with hu | ⟨ph', hu, hu'⟩
  · rw [hu] at e2; cases e2
  · rw [hu] at e2
    cases e2
    rw [hu' _ e3.header] at hv
    cases hv

/-! ### Outbound -/

theorem made_entry {E : Env} (hE : Standard E) {o : Jwx} {msg : String} (hm : o.msg = .str msg) {keys : List Key} (hne : keys ≠ [])
    {p : PyDict} {u : PyVal} {name : String} {a : SigAlg} (hok : HeaderOut o keys p u name a) {rnd : Nat} {e : PyDict}
    (h : o.createSignature E keys p u rnd = .ok e) {pl : String} (hpl : utf8Encode pl = b64e (utf8Encode msg)) :
    (∃ s h, e = [("signature", .str s)] ++ (if u.truthy then [("header", u)] else []) ++ [("protected", .str h)]) ∧
    ∀ d, PyDict.get? d "protected" = PyDict.get? e "protected" → PyDict.get? d "signature" = PyDict.get? e "signature" →
      PyDict.get? d "header" = PyDict.get? e "header" → RfcMadeEntry keys pl name a p u (.dict d) := by
  unfold Jwx.createSignature at h
  simp only [Bind.bind] at h
  obtain ⟨alg, halg, ha1⟩ := bind_ok_iff.mp h
  obtain ⟨j, hj, ha2⟩ := bind_ok_iff.mp ha1
  obtain ⟨t, ht, ha3⟩ := bind_ok_iff.mp ha2
  obtain ⟨⟨h0, x, s⟩, hsp, ha4⟩ := bind_ok_iff.mp ha3
  clear h ha1 ha2 ha3
  rename' ha4 => h
  simp only [Except.ok.injEq] at h
  set ph := if PyDict.has p "alg" then p else PyDict.set p "alg" alg with hph
  have hoalg : PyDict.get? o.dict "alg" = some alg := by
    unfold Jwx.algAttr at halg
    split at halg
    · rename_i v hv; rw [hv]; rw [Except.ok.inj halg]
    · simp at halg
  have hpa : PyDict.get? ph "alg" = some (.str name) := by
    rcases hok.alg with h1 | ⟨h1, h2⟩
    · simp [hph, PyDict.has, h1]
    · rw [hoalg] at h2
      simp [hph, PyDict.has, h1, PyDict.get?_set, Option.some.inj h2]
  have hpo : ∀ n, n ≠ "alg" → PyDict.get? ph n = PyDict.get? p n := by
    intro n hn
    rw [hph]
    split
    · rfl
    · rw [PyDict.get?_set, if_neg hn]
  have hpj : (PyVal.dict ph).jsonable = true := by
    rw [hph]
    split
    · exact hok.json
    · rename_i hnh
      refine jsonable_set _ _ _ hok.json ?_
      have : PyDict.get? ph "alg" = some alg := by
        rw [hph, if_neg hnh, PyDict.get?_set, if_pos rfl]
      rw [hpa] at this
      rw [← Option.some.inj this]; rfl
  set pr := if p.isEmpty then [] else ph with hpr
  have hprj : (PyVal.dict pr).jsonable = true := by
    rw [hpr]; split
    · rfl
    · exact hpj
  have hpro : ∀ n, n ≠ "alg" → PyDict.get? pr n = PyDict.get? p n := by
    intro n hn
    rw [hpr]
    split
    · rename_i hp; rw [List.isEmpty_iff.mp hp]
    · exact hpo n hn
  obtain ⟨hself, hja, hjt, hjm, hjk⟩ := new_state hpa hj
  have hname : (PyVal.str name).truthy = true := by
    obtain ⟨-, hne, -⟩ := supported_alg2keytype hok.sup
    simp [PyVal.truthy, hne]
  obtain ⟨k, hkm, kid, hdr, pb, input, sig, -, ⟨hs, s0, s1, s2, htt, rfl, hb0, hjl, hb1, hb2⟩, hspec, hPB, hmade⟩ :=
    C136_tokens hE j keys hne pr rnd t name a hok.sup (.inl ⟨hja, hname⟩) hprj hok.kids
    (by
      intro v hv
      rw [hjt] at hv
      exact jsonable_get? hpj hv)
    (by rw [hjm, hm]; trivial) hok.own ht
  rw [hjm, hm] at hPB
  obtain rfl : pb = utf8Encode msg := hPB
  have hnd : ∀ {b t : Bytes}, IsB64Url b t → (46 : UInt8) ∉ t := by
    intro b t hb
    rw [C02_unique _ _ hb]
    exact b64e_no_dot b
  obtain ⟨e0, e2⟩ := split3_ok hsp htt (hnd hb0) (hnd hb1) (hnd hb2)
  have hh0 : h0 ≠ "" := by
    rintro rfl
    have hl := isB64Url_length hb0
    rw [← e0, show utf8Encode "" = [] by decide] at hl
    have hl' : (utf8Encode hs).length = 0 := by simp at hl; omega
    have hse : hs = "" := by
      have := utf8Decode_encode hs
      rw [List.length_eq_zero_iff.mp hl', show utf8Decode [] = .ok "" by decide] at this
      exact (Except.ok.inj this).symm
    rw [hse, show jsonLoads "" = .error .jsonDecodeError by decide] at hjl
    cases hjl
  rw [if_neg hh0] at h
  subst h
  refine ⟨⟨s, h0, rfl⟩, ?_⟩
  intro d hg1 hg2 hg3
  have hg1' : PyDict.get? d "protected" = some (.str h0) := by
    rw [hg1]
    by_cases hu : u.truthy = true <;> simp [hu, PyDict.get?, List.lookup_cons]
  have hg2' : PyDict.get? d "signature" = some (.str s) := by
    rw [hg2]
    simp [PyDict.get?]
  refine ⟨h0, s, _, hs, hdr, sig, ⟨d, rfl, hg1', hg2', ?_⟩, rfl, by rw [e0]; exact hb0, hjl, hspec.1, ?_, by rw [e2]; exact hb2, k, hkm, ?_⟩
  · rw [hg3]
    by_cases hu : u.truthy = true
    · rcases hok.unprot with h | ⟨ud, rfl, -⟩
      · rw [hu] at h; simp at h
      · left; simp [hu, PyDict.get?, List.lookup_cons, members]
    · right; simp [hu, PyDict.get?, List.lookup_cons]
  · intro n h1 h2 h3
    rw [hspec.2.2.2 n h1 h2 h3, hpro n h1]
  · rw [e0, hpl, ← C02_unique _ _ hb1]
    exact hmade

/-- **C138.** What `sign_json` returns is a JWS JSON serialization of RFC 7515 section 7.2, with one entry for each pair of headers; every
entry is signed as RFC 7518 says by one of the keys, over its own protected header and the payload. -/
theorem C138_made {E : Env} (hE : Standard E) (o : Jwx) (msg : String) (hm : o.msg = .str msg) (keys : List Key) (hne : keys ≠ [])
    (headers : Option (List (PyDict × PyVal))) (flatten : Bool) (rnds : Nat → Nat) (hs : List (PyDict × PyVal))
    (hl : HeaderPairs o headers hs) (hok : ∀ x ∈ hs, ∃ name a, HeaderOut o keys x.1 x.2 name a) (t : String)
    (h : o.signJson E keys headers flatten rnds = .ok t) :
    ∃ d pl l, jsonLoads t = .ok (.dict d) ∧ PyDict.get? d "payload" = some (.str pl) ∧ IsB64Url (utf8Encode msg) (utf8Encode pl) ∧
      Listed d l ∧
      List.Forall₂ (fun x s => ∃ name a, EntryAlg o x.1 (.str name) ∧ SupportedAlg name a ∧ RfcMadeEntry keys pl name a x.1 x.2 s) hs l := by
  unfold Jwx.signJson at h
  simp only [Bind.bind] at h
  obtain ⟨pl, hpl0, h1⟩ := bind_ok_iff.mp h
  obtain ⟨hs', hhs, h2⟩ := bind_ok_iff.mp h1
  clear h h1
  have hpl : utf8Encode pl = b64e (utf8Encode msg) := by
    rw [hm] at hpl0
    exact (asciiEncode_utf8 (asciiEncode_decode hpl0)).1
  obtain rfl : hs' = hs := by
    rcases hl with rfl | ⟨rfl, alg, ha, rfl⟩
    · exact (Except.ok.inj hhs).symm
    · simp only [Jwx.headerList, Jwx.algAttr, ha, Bind.bind, Except.bind, Except.ok.injEq] at hhs
      exact hhs.symm
  clear hl hhs
  have hujson : ∀ x ∈ hs', x.2.truthy = true → x.2.jsonable = true := by
    intro x hx hu
    obtain ⟨_, _, hk⟩ := hok x hx
    rcases hk.unprot with h | ⟨d, h, h'⟩
    · rw [hu] at h; simp at h
    · exact h'
  have hall : ∀ (hs : List (PyDict × PyVal)) (i : Nat) (r : List PyVal),
      (∀ x ∈ hs, ∃ name a, HeaderOut o keys x.1 x.2 name a) →
      (∀ x ∈ hs, x.2.truthy = true → x.2.jsonable = true) →
      o.createAll E keys rnds i hs = .ok r →
      List.Forall₂ (fun x s => ∃ name a, EntryAlg o x.1 (.str name) ∧ SupportedAlg name a ∧ RfcMadeEntry keys pl name a x.1 x.2 s) hs r ∧
      ∀ x ∈ r, x.jsonable = true := by
    intro hs
    induction hs with
    | nil =>
      intro i r _ _ h
      simp only [Jwx.createAll, Except.ok.injEq] at h
      subst h
      exact ⟨.nil, by simp⟩
    | cons x hs ih =>
      intro i r hok hj h
      obtain ⟨p, u⟩ := x
      simp only [Jwx.createAll, Bind.bind] at h
      obtain ⟨e, he, h'⟩ := bind_ok_iff.mp h
      obtain ⟨r', hr', h''⟩ := bind_ok_iff.mp h'
      obtain rfl := Except.ok.inj h''
      obtain ⟨ih1, ih2⟩ := ih (i + 1) r' (fun y hy => hok y (by simp [hy]))
        (fun y hy => hj y (by simp [hy])) hr'
      obtain ⟨name, a, hk⟩ := hok (p, u) (by simp)
      obtain ⟨⟨s, h0, hes⟩, hev⟩ := made_entry hE hm hne hk he hpl
      refine ⟨.cons ⟨name, a, hk.alg, hk.sup, hev e rfl rfl rfl⟩ ih1, ?_⟩
      intro y hy
      rcases List.mem_cons.mp hy with rfl | hy
      · rw [hes]
        have := hj (p, u) (by simp)
        simp only at this
        by_cases hu : u.truthy = true
        · simp [hu, PyVal.jsonable, PyVal.jsonableD, this hu]
        · simp [hu, PyVal.jsonable, PyVal.jsonableD]
      · exact ih2 y hy
  have hB : IsB64Url (utf8Encode msg) (utf8Encode pl) := by rw [hpl]; exact C02_rfc4648 _
  split at h2
  · -- flattened
    rename_i p u
    obtain ⟨e, he, ht⟩ := bind_ok_iff.mp h2
    obtain ⟨name, a, hk⟩ := hok (p, u) (by simp)
    obtain ⟨⟨s, h0, hes⟩, hev⟩ := made_entry hE hm hne hk he hpl
    set d := PyDict.update [("payload", .str pl)] e with hd
    have hdd : d = ("payload", .str pl) :: e := by
      rw [hd, hes]
      by_cases hu : u.truthy = true <;> simp [hu, PyDict.update, PyDict.set]
    have hdj : (PyVal.dict d).jsonable = true := by
      rw [hdd, hes]
      have := hujson (p, u) (by simp)
      simp only at this
      by_cases hu : u.truthy = true
      · simp [hu, PyVal.jsonable, PyVal.jsonableD, this hu]
      · simp [hu, PyVal.jsonable, PyVal.jsonableD]
    obtain ⟨t', ht', hlo⟩ := jsonLoads_dumps (.dict d) hdj
    rw [ht] at ht'
    obtain rfl := Except.ok.inj ht'
    refine ⟨d, pl, [.dict d], hlo, by rw [hdd]; rfl, hB, .inr (.inr ⟨?_, rfl⟩), .cons ⟨name, a, hk.alg, hk.sup, ?_⟩ .nil⟩
    · rw [hdd, hes]
      by_cases hu : u.truthy = true <;> simp [hu, PyDict.get?, List.lookup_cons]
    · refine hev d ?_ ?_ ?_ <;> rw [hdd] <;> rfl
  · obtain ⟨r, hr, ht⟩ := bind_ok_iff.mp h2
    obtain ⟨hf, hj⟩ := hall _ 0 r hok hujson hr
    obtain ⟨t', ht', hlo⟩ := jsonLoads_dumps (.dict [("payload", .str pl), ("signatures", .list r)])
      (by simp [PyVal.jsonable, PyVal.jsonableD, jsonableL_of hj])
    rw [ht] at ht'
    obtain rfl := Except.ok.inj ht'
    exact ⟨_, pl, r, hlo, rfl, hB, .inl rfl, hf⟩

/-! ### Examples -/

/-- Two signatures with HS256 and the secret `k`; the second one has an unprotected header. -/
def exTwoSigs : String :=
  "{\"payload\": \"e30\", \"signatures\": [{\"protected\": \"eyJhbGciOiJIUzI1NiJ9\", " ++
  "\"signature\": \"CYG8qKSuUG1cj5ZM7YUE3kRjuUjOfiv14zgdYx-7pLo\"}, " ++
  "{\"protected\": \"eyJhbGciOiJIUzI1NiJ9\", \"header\": {\"x\": 1}, " ++
  "\"signature\": \"CYG8qKSuUG1cj5ZM7YUE3kRjuUjOfiv14zgdYx-7pLo\"}]}"

/-- The entry with the given unprotected header, if any. -/
def exSigEntry (u : PyDict) : PyDict :=
  [("protected", .str "eyJhbGciOiJIUzI1NiJ9")] ++ u ++ [("signature", .str "CYG8qKSuUG1cj5ZM7YUE3kRjuUjOfiv14zgdYx-7pLo")]

@[inherit_doc exTwoSigs]
def exTwoDict : PyDict :=
  [("payload", .str "e30"), ("signatures", .list [.dict (exSigEntry []), .dict (exSigEntry [("header", .dict [("x", .int 1)])])])]

theorem exTwoSigs_loads : jsonLoads exTwoSigs = .ok (.dict exTwoDict) := by decide +kernel

theorem exProtected {prot : PyDict} (h : ProtectedMembers "eyJhbGciOiJIUzI1NiJ9" prot) : prot = [("alg", .str "HS256")] := by
  obtain ⟨hb, hs, h1, h2, h3⟩ := h
  have e1 : b64d (utf8Encode "eyJhbGciOiJIUzI1NiJ9") = .ok (utf8Encode "{\"alg\":\"HS256\"}") := by decide +kernel
  rw [e1] at h1
  cases h1
  rw [utf8Decode_encode] at h2
  cases h2
  have e3 : jsonLoads "{\"alg\":\"HS256\"}" = .ok (.dict [("alg", .str "HS256")]) := by decide +kernel
  rw [e3] at h3
  cases h3
  rfl

theorem exEntry_tame (un : PyDict) (hun : un = [] ∨ un = [("x", .int 1)]) (u : PyDict) (hu : u = [] ∨ u = [("header", .dict un)]) :
    TameEntry stdEnv (.dict (exSigEntry u)) := by
  rintro ph sg un' prot ⟨d, hd, h1, -, h3⟩ hp
  obtain rfl := PyVal.dict.inj hd
  have e1 : PyDict.get? (exSigEntry u) "protected" = some (.str "eyJhbGciOiJIUzI1NiJ9") := by
    rcases hu with rfl | rfl <;> rfl
  rw [e1] at h1
  cases h1
  obtain rfl := exProtected hp
  have hun' : un' = [] ∨ un' = [("x", .int 1)] := by
    rcases hu with rfl | rfl
    · rcases h3 with h | ⟨-, rfl⟩
      · cases h
      · exact .inl rfl
    · rcases h3 with h | ⟨h, -⟩
      · cases h; exact hun
      · cases h
  have hself : Merged [("alg", .str "HS256")] un' "self" = none := by rcases hun' with rfl | rfl <;> rfl
  have hjwk : Merged [("alg", .str "HS256")] un' "jwk" = none := by rcases hun' with rfl | rfl <;> rfl
  refine ⟨hself, (by rw [hjwk]; rintro v h; cases h), ?_⟩
  intro name h hn hs
  cases hn
  have e1 := (signerOf_iff (.str "HS256") _).mpr ⟨_, rfl, hs⟩
  have e2 := (signerOf_iff (.str "HS256") (.hs .sha256)).mpr ⟨_, rfl, .HS256⟩
  rw [e1] at e2
  cases e2

theorem exEntry_rfc (un : PyDict) (hun : un = [] ∨ un = [("x", .int 1)]) (u : PyDict) (hu : (u = [] ∧ un = []) ∨ u = [("header", .dict un)]) :
    RfcEntry stdEnv [exKey] "e30" (.dict (exSigEntry u)) (.dict []) := by
  have hkid : (Merged [("alg", .str "HS256")] un "kid").getD .none = .none := by rcases hun with rfl | rfl <;> rfl
  refine ⟨"eyJhbGciOiJIUzI1NiJ9", "CYG8qKSuUG1cj5ZM7YUE3kRjuUjOfiv14zgdYx-7pLo", [("alg", .str "HS256")], un, utf8Encode "{}",
    [9, 129, 188, 168, 164, 174, 80, 109, 92, 143, 150, 76, 237, 133, 4, 222, 68, 99, 185, 72, 206, 126, 43, 245, 227, 56, 29, 99, 31, 187, 164, 186],
    "HS256", .hs .sha256, ⟨_, rfl, ?_, ?_, ?_⟩, ⟨⟨_, rfl, by decide +kernel, by decide +kernel⟩, ⟨by decide +kernel, by decide +kernel⟩,
      ⟨utf8Encode "{\"alg\":\"HS256\"}", "{\"alg\":\"HS256\"}", by decide +kernel, utf8Decode_encode _, by decide +kernel⟩, by decide +kernel⟩,
    ⟨.str "{}", .inl ⟨"{}", rfl, rfl⟩, .inr ⟨.inl rfl, .inl (.inl ⟨"{}", rfl, by decide +kernel⟩)⟩⟩, rfl, .HS256, exKey, by simp, ?_, ?_⟩
  · rcases hu with ⟨rfl, rfl⟩ | rfl <;> rfl
  · rcases hu with ⟨rfl, rfl⟩ | rfl <;> rfl
  · rcases hu with ⟨rfl, rfl⟩ | rfl
    · exact .inr ⟨rfl, rfl⟩
    · exact .inl rfl
  · rw [hkid]
    exact ⟨.inl rfl, by decide, by decide⟩
  · exact ⟨_, rfl, by decide +kernel⟩

/-- The token is accepted. -/
example (o : Jwx) : (o.verifyJson stdEnv exTwoSigs [exKey] false .none).1 = .ok (.dict []) := by
  have hec : ¬ IsEc exKey := by rintro ⟨_, _, _, _, _, h⟩; simp [exKey] at h
  refine (C138_json stdEnv_standard o (by simp) ?_ exTwoSigs_loads rfl (.inl rfl) ?_ _).mpr
    ⟨[.dict [], .dict []], .cons (exEntry_rfc [] (.inl rfl) [] (.inl ⟨rfl, rfl⟩)) (.cons (exEntry_rfc _ (.inr rfl) _ (.inr rfl)) .nil),
      .inr ⟨[], [.dict []], rfl, by simp, by simp, fun x hx => by rw [List.mem_singleton.mp hx]; decide +kernel⟩⟩
  · intro k hk a name kid ha hs
    obtain rfl := List.mem_singleton.mp hk
    cases a with
    | hs h => exact ⟨hec, _, rfl⟩
    | es h => exact absurd rfl (ha h)
    | rs h => rcases spelled_str hs.1 with h | h <;> exact absurd h (by decide)
    | ps h => rcases spelled_str hs.1 with h | h <;> exact absurd h (by decide)
  · intro s hs
    rcases List.mem_cons.mp hs with rfl | hs
    · exact exEntry_tame [] (.inl rfl) [] (.inl rfl)
    · obtain rfl := List.mem_singleton.mp hs
      exact exEntry_tame _ (.inr rfl) _ (.inr rfl)

/-- The algorithm in the unprotected header. -/
example (o : Jwx) (keys : List Key) (an : Bool) (m : PyVal) : (o.verifyJson stdEnv
    "{\"payload\": \"e30\", \"header\": {\"alg\": \"HS256\"}, \"signature\": \"AA\"}" keys an .none).1 ≠ .ok m :=
  C138_unprotected stdEnv o (d := [("payload", .str "e30"), ("header", .dict [("alg", .str "HS256")]), ("signature", .str "AA")])
    (by decide +kernel) (.inr (.inr ⟨rfl, rfl⟩)) (List.mem_singleton.mpr rfl) (.inl rfl) keys an .none m

/-- Two signatures made. -/
example : ∃ t d pl l, ({ msg := .str "{}", dict := [("alg", .str "HS256")] } : Jwx).signJson stdEnv [exKey]
      (some [([("typ", .str "JWT")], .none), ([("alg", .str "HS512")], .dict [("x", .int 1)])]) false (fun _ => 0) = .ok t ∧
    jsonLoads t = .ok (.dict d) ∧ Listed d l ∧ l.length = 2 ∧ ∃ s ∈ l, ∃ p u, RfcMadeEntry [exKey] pl "HS512" (.hs .sha512) p u s := by
  have hec : ¬ IsEc exKey := by rintro ⟨_, _, _, _, _, h⟩; simp [exKey] at h
  have hex : ∃ t, ({ msg := .str "{}", dict := [("alg", .str "HS256")] } : Jwx).signJson stdEnv [exKey]
      (some [([("typ", .str "JWT")], .none), ([("alg", .str "HS512")], .dict [("x", .int 1)])]) false (fun _ => 0) = .ok t := by
    have h : ∀ {x : PyM String}, x.isOk = true → ∃ t, x = .ok t := by
      intro x h
      cases x with
      | error e => cases h
      | ok t => exact ⟨t, rfl⟩
    exact h (by decide +kernel)
  obtain ⟨t, ht⟩ := hex
  obtain ⟨d, pl, l, h1, -, -, h2, h3⟩ := C138_made stdEnv_standard _ "{}" rfl [exKey] (by simp) _ false _ _ (.inl rfl) (by
    intro x hx
    rcases List.mem_cons.mp hx with rfl | hx
    · exact ⟨"HS256", _, .inr ⟨rfl, rfl⟩, .HS256, rfl, .inl rfl, fun k hk => by rw [List.mem_singleton.mp hk]; rfl,
        fun _ k hk _ => by rw [List.mem_singleton.mp hk]; exact hec⟩
    · obtain rfl := List.mem_singleton.mp hx
      exact ⟨"HS512", _, .inl rfl, .HS512, rfl, .inr ⟨_, rfl, rfl⟩, fun k hk => by rw [List.mem_singleton.mp hk]; rfl,
        fun _ k hk _ => by rw [List.mem_singleton.mp hk]; exact hec⟩) t ht
  refine ⟨t, d, pl, l, ht, h1, h2, h3.length_eq.symm, ?_⟩
  cases h3 with
  | cons _ h =>
    cases h with
    | cons h _ =>
      obtain ⟨name, a, ha | ⟨ha, -⟩, hs, hm⟩ := h
      · cases ha
        have e1 := (signerOf_iff (.str "HS512") a).mpr ⟨_, rfl, hs⟩
        have e2 := (signerOf_iff (.str "HS512") (.hs .sha512)).mpr ⟨_, rfl, .HS512⟩
        rw [e1] at e2
        cases e2
        exact ⟨_, by simp, _, _, hm⟩
      · cases ha

end Verif
