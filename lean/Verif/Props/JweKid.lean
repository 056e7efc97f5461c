import Verif.Props.Factory
import Verif.Props.JweState
import Verif.Props.JweRsa
import Verif.Props.JweEc
/-
C133: the `kid` of an encrypted token.
-/

namespace Verif
open Spec

/-- The key has the `kid` of the header, if the header has one that is not empty. -/
def Spec.NamedBy (h : PyDict) (k : Key) : Prop :=
  ∀ v, PyDict.get? h "kid" = some v → v.truthy = true → v.pyEq k.kid = true

theorem isJwe_dict {j : Jwt} (h : j.isJwe = .ok true) : ∃ hdr, j.headers = .dict hdr := by
  by_contra hn
  have hg : ∀ n, j.headers.getItem n = .error .typeError := by
    intro n
    rcases hd : j.headers with _ | _ | _ | _ | _ | _ | _ | d
    case dict => exact absurd ⟨_, hd⟩ hn
    all_goals rfl
  unfold Jwt.isJwe at h
  simp only [hg, Bind.bind] at h
  obtain ⟨c, h1, h2⟩ := bind_ok_iff.mp h
  obtain ⟨b, h3, h4⟩ := bind_ok_iff.mp h2
  have hb : b = false := by
    cases c
    · simpa using h3.symm
    · simp [Except.bind] at h3
  subst hb
  simp only [Bool.false_eq_true, if_false] at h4
  obtain ⟨c', h5, h6⟩ := bind_ok_iff.mp h4
  obtain ⟨b', h7, h8⟩ := bind_ok_iff.mp h6
  cases b'
  · simp at h8
  · simp [Except.bind] at h8

theorem keySource_fresh (E : Env) (j : Option Jwt) (keys : List Key) :
    ({ jwt := j } : Jwe).keySource E keys = .ok (keys.map JKey.key) := by
  unfold Jwx.keySource
  cases keys <;> rfl

theorem pickKeys_held {j : Jwt} {h : PyDict} (hj : j.headers = .dict h) (p : Key → Bool) (hp : ∀ k, p k = true ↔ NamedBy h k)
    (keys : List Key) (use : String) (alg : PyVal) :
    ({ jwt := some j } : Jwe).pickKeys jweAlg2keytype (keys.map JKey.key) use alg =
      ({} : Jwe).pickKeys jweAlg2keytype ((keys.filter p).map JKey.key) use alg := by
  have hw : ({ jwt := some j } : Jwe).wantedKid = .ok ((PyDict.get? h "kid").getD .none) := by
    simp only [Jwx.wantedKid, hj, PyVal.getItem]
    cases PyDict.get? h "kid" <;> rfl
  have hw' : ({} : Jwe).wantedKid = .ok .none := rfl
  have hf : ∀ k kt a, (keyPasses ((PyDict.get? h "kid").getD .none) use a k && ktyMatches kt k.kty) =
      ((keyPasses .none use a k && ktyMatches kt k.kty) && p k) := by
    intro k kt a
    have : (!((PyDict.get? h "kid").getD .none).truthy || ((PyDict.get? h "kid").getD .none).pyEq k.kid) = p k := by
      rw [Bool.eq_iff_iff, hp]
      unfold NamedBy
      cases PyDict.get? h "kid" with
      | none => simp [PyVal.truthy]
      | some v => cases hv : v.truthy <;> simp [hv]
    unfold keyPasses
    rw [this]
    rw [show (!PyVal.none.truthy || PyVal.none.pyEq k.kid) = true from rfl]
    generalize p k = a1
    generalize (use == "" || !k.use.truthy || k.use.pyEq (PyVal.str use)) = a2
    generalize (!a.truthy || !k.alg.truthy || k.alg.pyEq a) = a3
    generalize ktyMatches kt k.kty = a4
    revert a1 a2 a3 a4
    decide
  unfold Jwx.pickKeys
  simp only [keysOfType_keys, hw, hw', Bind.bind, Except.bind, List.filter_filter, hf, Bool.and_assoc]

/-- What a token's object decrypts, as a call on a new object. -/
theorem decrypt_held {j : Jwt} {h : PyDict} (hj : j.headers = .dict h) (p : Key → Bool) (hp : ∀ k, p k = true ↔ NamedBy h k) (E : Env)
    (rnd : JweRnd) (token token' : Bytes) (ht : ({ jwt := some j } : Jwe).tokenOf token = ({} : Jwe).tokenOf token') (keys : List Key) (alg : PyVal) (cek : Bytes) :
    (({ jwt := some j } : Jwe).decrypt E rnd token keys alg cek).1 = (({} : Jwe).decrypt E rnd token' (keys.filter p) alg cek).1 := by
  have h2 : ∀ x, ({ jwt := some j } : Jwe).decryptJwt E rnd x keys alg cek = ({} : Jwe).decryptJwt E rnd x (keys.filter p) alg cek := by
    intro x
    unfold Jwe.decryptJwt
    rw [keySource_fresh, keySource_fresh]
    simp only [Bind.bind, Except.bind, pickKeys_held hj p hp]
  unfold Jwe.decrypt
  simp only [ht, h2]
  split <;> rfl

theorem unpack_nil (j : Jwt) : Jwt.unpack [] ≠ .ok j := by
  intro h
  have : (match Jwt.unpack [] with | .ok _ => true | .error _ => false) = false := by decide +kernel
  rw [h] at this
  cases this

/-- **C133.** `factory(token).decrypt(keys=keys)` gives the message or the exception of `JWE().decrypt(token, keys)` with
those of the keys that have the `kid` of the token's header. -/
theorem C133_factory {token : Bytes} {o : Jwe} (hf : jweFactory token = .ok (some o)) :
    ∃ j h, Jwt.unpack token = .ok j ∧ j.headers = .dict h ∧ o = { jwt := some j } ∧
      ∀ (E : Env) (rnd : JweRnd) (p : Key → Bool), (∀ k, p k = true ↔ NamedBy h k) → ∀ (keys : List Key) (alg : PyVal) (cek : Bytes),
        (o.decrypt E rnd [] keys alg cek).1 = (({} : Jwe).decrypt E rnd token (keys.filter p) alg cek).1 := by
  obtain ⟨j, b, hj, hb, hc⟩ := (C27_jwe_factory token (some o)).mp hf
  rcases hc with ⟨rfl, o', ho', rfl, -⟩ | ⟨-, h⟩
  · cases ho'
    obtain ⟨h, hh⟩ := isJwe_dict hb
    refine ⟨j, h, hj, hh, rfl, fun E rnd p hp keys alg cek => decrypt_held hh p hp E rnd _ _ ?_ keys alg cek⟩
    have hne : token ≠ [] := by rintro rfl; exact unpack_nil _ hj
    simp [Jwe.tokenOf, hne, hj]
  · cases h

/-- **C133.** The same object asked to decrypt another token still wants the `kid` of the token it was made from. -/
theorem C133_stale {token : Bytes} {o : Jwe} (hf : jweFactory token = .ok (some o)) :
    ∃ j h, Jwt.unpack token = .ok j ∧ j.headers = .dict h ∧
      ∀ (E : Env) (rnd : JweRnd) (p : Key → Bool), (∀ k, p k = true ↔ NamedBy h k) → ∀ (other : Bytes), other ≠ [] →
        ∀ (keys : List Key) (alg : PyVal) (cek : Bytes),
        (o.decrypt E rnd other keys alg cek).1 = (({} : Jwe).decrypt E rnd other (keys.filter p) alg cek).1 := by
  obtain ⟨j, b, hj, hb, hc⟩ := (C27_jwe_factory token (some o)).mp hf
  rcases hc with ⟨rfl, o', ho', rfl, -⟩ | ⟨-, h⟩
  · cases ho'
    obtain ⟨h, hh⟩ := isJwe_dict hb
    refine ⟨j, h, hj, hh, fun E rnd p hp other hne keys alg cek => decrypt_held hh p hp E rnd _ _ ?_ keys alg cek⟩
    simp [Jwe.tokenOf, hne]
  · cases h

/-! ### Without a factory the labels do not matter -/

/-- The key with another `kid`. -/
def Spec.relabel (f : Key → PyVal) (k : Key) : Key := { k with kid := f k }

theorem emap_bind {α β γ : Type} (f : β → γ) (x : PyM α) (g : α → PyM β) : (x.bind g).map f = x.bind fun a => (g a).map f := by
  cases x <;> rfl

theorem emap_valueErrorTo {α β : Type} (f : α → β) (e : Exc) (x : PyM α) : (valueErrorTo e x).map f = valueErrorTo e (x.map f) := by
  cases x with
  | ok a => rfl
  | error e' =>
    show Except.map f (if e'.isValueError then .error e else .error e') = if e'.isValueError then .error e else .error e'
    split <;> rfl

theorem emap_ite {α β : Type} (f : α → β) (c : Prop) [Decidable c] (x y : PyM α) :
    (if c then x else y).map f = if c then x.map f else y.map f := by
  split <;> rfl

theorem rsaDeserialize_kid (E : Env) (k : Key) (m : RsaMat) (v : PyVal) :
    ((rsaDeserialize E { k with kid := v } m).map fun k => KeyArg.obj k.key) = (rsaDeserialize E k m).map fun k => .obj k.key := by
  obtain ⟨kty, alg, use, kid, key, x5c, x5t, x5u, extra, hash, mat⟩ := k
  unfold rsaDeserialize
  simp only [Bind.bind, emap_ite, emap_valueErrorTo, emap_bind]
  split
  · rfl
  · split
    · congr
      funext t
      congr
      funext der
      split
      · cases x5t with
        | str s =>
          simp only
          generalize asciiEncode s = a
          cases a with
          | error e => rfl
          | ok a =>
            simp only [ebind_ok]
            generalize b64d a = c
            cases c with
            | error e => rfl
            | ok c =>
              simp only [ebind_ok]
              split
              · generalize E.R.fromCert der = r
                cases r <;> rfl
              · rfl
        | _ => rfl
      · congr
    · rfl

theorem encryptionKey_relabel (E : Env) (f : Key → PyVal) (k : Key) (alg : PyVal) (priv : Bool) :
    (relabel f k).encryptionKey E alg priv = k.encryptionKey E alg priv := by
  unfold Key.encryptionKey relabel
  simp only
  split
  · rfl
  · split
    · rfl
    · exact rsaDeserialize_kid E k _ _
  · rfl
  · rfl

theorem keyPasses_relabel (f : Key → PyVal) (use : String) (alg : PyVal) (k : Key) :
    keyPasses .none use alg (relabel f k) = keyPasses .none use alg k := rfl

theorem decryptLoop_relabel (E : Env) (kind : JweKind) (rnd : JweRnd) (j : Jwt) (setup : Bytes × Bytes × Bytes × Bytes) (alg : PyVal)
    (f : Key → PyVal) : ∀ (l : List Key) (i : Nat),
    decryptLoop E kind rnd j setup alg i (l.map (relabel f)) = decryptLoop E kind rnd j setup alg i l
  | [], i => rfl
  | k :: l, i => by
    simp only [List.map_cons, decryptLoop, encryptionKey_relabel]
    split
    · rfl
    · split
      · rfl
      · rw [decryptLoop_relabel E kind rnd j setup alg f l (i + 1)]

theorem decryptTry_relabel (E : Env) (kind : JweKind) (rnd : JweRnd) (j : Jwt) (setup : Bytes × Bytes × Bytes × Bytes) (alg : PyVal)
    (f : Key → PyVal) (l : List Key) (cek : Bytes) :
    decryptTry E kind rnd j setup alg (l.map (relabel f)) cek = decryptTry E kind rnd j setup alg l cek := by
  unfold decryptTry
  simp only [decryptLoop_relabel]

theorem pickKeys_relabel (f : Key → PyVal) (keys : List Key) (use : String) (alg : PyVal) :
    ({} : Jwe).pickKeys jweAlg2keytype ((keys.map (relabel f)).map JKey.key) use alg =
      (({} : Jwe).pickKeys jweAlg2keytype (keys.map JKey.key) use alg).map fun l => l.map (relabel f) := by
  have hw' : ({} : Jwe).wantedKid = .ok .none := rfl
  have hf : ∀ kt a, ((keys.map (relabel f)).filter fun k => ktyMatches kt k.kty).filter (keyPasses .none use a) =
      ((keys.filter fun k => ktyMatches kt k.kty).filter (keyPasses .none use a)).map (relabel f) := by
    intro kt a
    rw [List.filter_map, List.filter_map]
    rfl
  unfold Jwx.pickKeys
  simp only [keysOfType_keys, hw', Bind.bind, ebind_ok, hf]
  generalize (if alg.truthy = true then Except.ok alg else PyVal.getItem (.dict []) "alg" : PyM PyVal) = x
  cases x with
  | error e => rfl
  | ok a =>
    simp only [ebind_ok]
    split
    · rfl
    · generalize jweAlg2keytype a = y
      cases y with
      | error e => rfl
      | ok o => cases o <;> rfl

/-- **C133.** On a new object the labels of the keys do not matter: whatever `kid` the keys have, and whatever `kid` the header
names, `JWE().decrypt(token, keys)` gives the same message or exception. -/
theorem C133_ignored (E : Env) (rnd : JweRnd) (token : Bytes) (keys : List Key) (f : Key → PyVal) (alg : PyVal) (cek : Bytes) :
    (({} : Jwe).decrypt E rnd token (keys.map (relabel f)) alg cek).1 = (({} : Jwe).decrypt E rnd token keys alg cek).1 := by
  have h2 : ∀ x, ({} : Jwe).decryptJwt E rnd x (keys.map (relabel f)) alg cek = ({} : Jwe).decryptJwt E rnd x keys alg cek := by
    intro x
    unfold Jwe.decryptJwt
    rw [keySource_fresh, keySource_fresh]
    simp only [Bind.bind, ebind_ok]
    generalize x.headers.getItem "alg" = y
    cases y with
    | error e => rfl
    | ok a =>
      simp only [ebind_ok]
      split
      · rfl
      · have hpk := pickKeys_relabel f keys "enc" a
        revert hpk
        generalize ({} : Jwe).pickKeys jweAlg2keytype (keys.map JKey.key) "enc" a = z
        generalize ({} : Jwe).pickKeys jweAlg2keytype ((keys.map (relabel f)).map JKey.key) "enc" a = z'
        rintro rfl
        cases z with
        | error e => rfl
        | ok l =>
          simp only [Except.map, ebind_ok, List.map_eq_nil_iff, decryptTry_relabel]
          split
          · rfl
          · generalize jweKind a = w
            cases w with
            | error e => rfl
            | ok kd =>
              simp only [ebind_ok]
              cases kd with
              | rsa => rfl
              | sym => rfl
              | ec => cases l <;> rfl
  unfold Jwe.decrypt
  simp only [h2]

/-! ### The recipient's key is found by its `kid` -/

theorem picked_unique {o : Jwx} {keys l l' : List Key} {wk wk' : PyVal} {m : KeyMgmt} {alg : String} {k k' : Key}
    (h1 : EffKeys o keys l) (h1' : EffKeys o keys l') (h2 : SignKid o wk) (h2' : SignKid o wk')
    (h3 : FirstPicked m alg wk l k) (h3' : FirstPicked m alg wk' l' k') : k' = k := by
  have hl : l' = l := by
    rcases h1 with ⟨hn, rfl⟩ | ⟨rfl, x, hx, rfl⟩ <;> rcases h1' with ⟨hn', rfl⟩ | ⟨h0, y, hy, rfl⟩
    · rfl
    · exact absurd h0 hn
    · exact absurd rfl hn'
    · rw [hx] at hy; cases hy; rfl
  have hw : wk' = wk := by
    rcases h2 with h | ⟨h, ⟨hj, rfl⟩ | ⟨j, hd, hj, hh, rfl⟩⟩ <;>
      rcases h2' with h' | ⟨h', ⟨hj', rfl⟩ | ⟨j', hd', hj', hh', rfl⟩⟩ <;>
      first
        | rfl
        | (rw [h] at h'; cases h'; rfl)
        | (rw [h] at h'; cases h'; done)
        | (rw [hj] at hj'; cases hj'; done)
        | (rw [hj] at hj'; cases hj'; rw [hh] at hh'; cases hh'; rfl)
  subst hl hw
  obtain ⟨pre, post, rfl, hp, hn⟩ := h3
  obtain ⟨pre', post', he, hp', hn'⟩ := h3'
  rcases List.append_eq_append_iff.mp he with ⟨a, rfl, ha⟩ | ⟨a, rfl, ha⟩
  · cases a with
    | nil => simpa using (List.cons.inj ha).1.symm
    | cons x a =>
      obtain ⟨rfl, -⟩ := List.cons.inj ha
      exact absurd hp (hn' _ (by simp))
  · cases a with
    | nil => simpa using (List.cons.inj ha).1
    | cons x a =>
      obtain ⟨rfl, -⟩ := List.cons.inj ha
      exact absurd hp' (hn _ (by simp))

/-- `k` is the only one of the keys with the `kid` `s`, and can be used. -/
structure Spec.KnownAs (m : KeyMgmt) (alg s : String) (keys : List Key) (k : Key) : Prop where
  member : k ∈ keys
  picked : EncPicked m alg (.str s) k
  only : ∀ x ∈ keys, x.kid = .str s → x = k

theorem Spec.KnownAs.first {m : KeyMgmt} {alg s : String} (hs : s ≠ "") {keys : List Key} {k : Key} (h : KnownAs m alg s keys k) :
    FirstPicked m alg (.str s) keys k := by
  have ht : (PyVal.str s).truthy = true := by simp [PyVal.truthy, hs]
  obtain ⟨pre, post, he, hn⟩ := List.eq_append_cons_of_mem h.member
  refine ⟨pre, post, he, h.picked, fun x hx hp => hn ?_⟩
  have hk := h.only x (by rw [he]; simp [hx]) ((str_pyEq_iff _ _).mp (hp.2.1 ht))
  rwa [hk] at hx

theorem decrypt_token_congr (E : Env) (o : Jwe) (rnd : JweRnd) {a b : Bytes} (h : o.tokenOf a = o.tokenOf b) (keys : List Key) (alg : PyVal)
    (cek : Bytes) : (o.decrypt E rnd a keys alg cek).1 = (o.decrypt E rnd b keys alg cek).1 := by
  unfold Jwe.decrypt
  rw [h]

theorem held_token {t : String} (ht : TakenAsJwe t) {hdr : PyDict} (hT : TokenHeader (utf8Encode t) hdr) {s : String}
    (hk : PyDict.get? hdr "kid" = some (.str s)) :
    ∃ o2, jweFactory (utf8Encode t) = .ok (some o2) ∧ SignKid o2.toJwx (.str s) ∧
      ∀ (E : Env) (rnd : JweRnd) (keys : List Key), (o2.decrypt E rnd [] keys).1 = (o2.decrypt E rnd (utf8Encode t) keys).1 := by
  obtain ⟨⟨o2, hf⟩, -, -⟩ := ht
  obtain ⟨j, b, hj, hb, hc⟩ := (C27_jwe_factory _ (some o2)).mp hf
  rcases hc with ⟨rfl, o', ho', rfl, -⟩ | ⟨-, h⟩
  · cases ho'
    obtain ⟨s0, ek, iv, ct, tag, hJ⟩ := hT
    obtain ⟨hb', hu⟩ := jweParts_unpack hJ
    rw [hj] at hu
    have hjj := Except.ok.inj hu
    subst hjj
    refine ⟨_, hf, .inr ⟨rfl, .inr ⟨_, hdr, rfl, rfl, by rw [hk]; rfl⟩⟩, fun E rnd keys => decrypt_token_congr E _ rnd ?_ keys _ _⟩
    have hne : utf8Encode t ≠ [] := by intro h; rw [h] at hj; exact unpack_nil _ hj
    simp only [Jwe.tokenOf, ne_eq, hne, not_false_eq_true, if_true, not_true_eq_false, if_false, hj]
  · cases h

/-- **C133.** Key wrap: the recipient who calls `factory(token).decrypt(keys=keys)` gets the message if one key of the list has the
`kid` of the sender's key and its material, wherever it is in the list and whatever the other keys are. -/
theorem C133_wrap {E : Env} (hC : E.C.Lawful) (hH : E.H.Lawful) {o : Jwe} {rnd : JweRnd} (hr : RndLengths rnd) {keys : List Key}
    {cek iv : Bytes} {t alg enc : String} {n kl il : Nat} (halg : PyDict.get? o.dict "alg" = some (.str alg))
    (hm : MgmtName alg (.wrap n)) (he : PyDict.get? o.dict "enc" = some (.str enc)) (hen : EncName enc kl il)
    (htyp : PyDict.get? o.dict "typ" = none ∨ ∃ s, PyDict.get? o.dict "typ" = some (.str s)) (hv : RealValues o keys none)
    (hcek : cek.length % 8 = 0 ∧ cek.length < 2 ^ 61) (h : (o.encrypt E rnd keys cek iv).1 = .ok t) :
    ∃ l wk k m, EffKeys o.toJwx keys l ∧ SignKid o.toJwx wk ∧ FirstPicked (.wrap n) alg wk l k ∧ o.msg = .str m ∧
      ∀ s, k.kid = .str s → s ≠ "" → ∃ o2, jweFactory (utf8Encode t) = .ok (some o2) ∧
        ∀ rnd2 keys2 k2, (∃ kk, k.mat = .sym kk) → SameMaterial k k2 → KnownAs (.wrap n) alg s keys2 k2 →
          (o2.decrypt E rnd2 [] keys2).1 = .ok (utf8Encode m) := by
  obtain ⟨l, wk, k, m, h1, h2, h3, h4, h5⟩ := C57_roundtrip hC hH hr halg hm hv hcek h
  obtain ⟨l', wk', k', h1', h2', h3', hdr, hT, -, hK, -⟩ := C89_wrap halg hm hv h
  refine ⟨l, wk, k, m, h1, h2, h3, h4, fun s hs hs0 => ?_⟩
  have hkk := picked_unique h1 h1' h2 h2' h3 h3'
  subst hkk
  have ht : (PyVal.str s).truthy = true := by simp [PyVal.truthy, hs0]
  rw [hs, symKid, if_pos ht] at hK
  obtain ⟨o2, hf, hsk, hd⟩ := held_token (C104_wrap halg hm he hen htyp hv h) hT (shows_str hK)
  refine ⟨o2, hf, fun rnd2 keys2 k2 hsym hsame hkn => ?_⟩
  rw [hd]
  exact h5 o2 rnd2 keys2 keys2 (.str s) k2 hsym hsame (.inl ⟨List.ne_nil_of_mem hkn.member, rfl⟩) hsk (hkn.first hs0)

/-- **C133.** The same for RSA. -/
theorem C133_rsa {E : Env} (hC : E.C.Lawful) (hH : E.H.Lawful) (hR : E.R.Lawful) (hZ : E.Z.Lawful) {o : Jwe} {rnd : JweRnd}
    (hr : RndLengths rnd) {keys : List Key} {iv : Bytes} {t alg enc : String} {p : RsaPad} {kl il : Nat}
    (halg : PyDict.get? o.dict "alg" = some (.str alg)) (hm : MgmtName alg (.rsa p)) (he : PyDict.get? o.dict "enc" = some (.str enc))
    (hen : EncName enc kl il) (htyp : PyDict.get? o.dict "typ" = none ∨ ∃ s, PyDict.get? o.dict "typ" = some (.str s))
    (hv : RealValues o keys none) (hser : ∀ k v, o.jwk = some (.key k) → k.serializeDflt = .ok v → Distinct v)
    (h : (o.encrypt E rnd keys [] iv).1 = .ok t) :
    ∃ l wk k c m, EffKeys o.toJwx keys l ∧ SignKid o.toJwx wk ∧ FirstPicked (.rsa p) alg wk l k ∧
      PyDict.get? (o.encrypt E rnd keys [] iv).2.dict "cek" = some (.bytes c) ∧ MsgBytes o.msg m ∧
      ∀ s, k.kid = .str s → s ≠ "" → ∃ o2, jweFactory (utf8Encode t) = .ok (some o2) ∧
        ∀ rnd2 keys2 k2 r r2, HoldsRsa k r → HoldsRsa k2 r2 → r2.Owns r → KnownAs (.rsa p) alg s keys2 k2 →
          (p = .pkcs1 → rnd2.sentinel 0 ≠ c) → (o2.decrypt E rnd2 [] keys2).1 = .ok m := by
  obtain ⟨l, wk, k, c, m, h1, h2, h3, hc, h4, h5⟩ := C58_roundtrip hC hH hR hZ hr halg hm hv hser h
  obtain ⟨l', wk', k', h1', h2', h3', hdr, hT, -, hK, -⟩ := C89_rsa halg hm hv hser h
  refine ⟨l, wk, k, c, m, h1, h2, h3, hc, h4, fun s hs hs0 => ?_⟩
  have hkk := picked_unique h1 h1' h2 h2' h3 h3'
  subst hkk
  have ht : (PyVal.str s).truthy = true := by simp [PyVal.truthy, hs0]
  rw [hs, rsaKid, if_pos ht] at hK
  obtain ⟨o2, hf, hsk, hd⟩ := held_token (C104_rsa halg hm he hen htyp hv hser h) hT (shows_str hK)
  refine ⟨o2, hf, fun rnd2 keys2 k2 r r2 hr1 hr2 how hkn hsen => ?_⟩
  rw [hd]
  exact h5 o2 rnd2 keys2 keys2 (.str s) k2 r r2 hr1 hr2 how (.inl ⟨List.ne_nil_of_mem hkn.member, rfl⟩) hsk (hkn.first hs0) hsen

/-- **C133.** The same for key agreement. -/
theorem C133_ecdh {E : Env} (hC : E.C.Lawful) (hH : E.H.Lawful) {o : Jwe} {rnd : JweRnd} (hr : RndLengths rnd) {keys : List Key}
    {cek iv : Bytes} {t alg enc : String} {m : KeyMgmt} {kl il : Nat} (halg : PyDict.get? o.dict "alg" = some (.str alg))
    (hm : MgmtName alg m) (hma : IsAgreement m) (he : PyDict.get? o.dict "enc" = some (.str enc)) (hen : EncName enc kl il)
    (htyp : PyDict.get? o.dict "typ" = none ∨ ∃ s, PyDict.get? o.dict "typ" = some (.str s)) (hv : RealValues o keys none)
    (hcek : ∀ b, PyDict.get? o.dict "cek" = some (.bytes b) → b.length % 8 = 0 ∧ b.length < 2 ^ 61)
    (h : (o.encrypt E rnd keys cek iv).1 = .ok t) :
    ∃ l wk k, EffKeys o.toJwx keys l ∧ SignKid o.toJwx wk ∧ FirstPicked m alg wk l k ∧
      ∀ (C : NistCurve) X Y (D : Nat), HasPoint C X Y k → (∀ e, o.epk = some e → EphemeralKey C e) → C.publicKeyFor D = some (X, Y) →
      ∃ msg, MsgBytes o.msg msg ∧
      ∀ s, k.kid = .str s → s ≠ "" → ∃ o2, jweFactory (utf8Encode t) = .ok (some o2) ∧
        ∀ rnd2 keys2 k2, HasScalar D k2 → KnownAs m alg s keys2 k2 → (o2.decrypt E rnd2 [] keys2).1 = .ok msg := by
  obtain ⟨l, wk, k, h1, h2, h3, h5⟩ := C59_roundtrip hC hH hr halg hm hma hv hcek h
  obtain ⟨l', wk', k', h1', h2', h3', h6⟩ := C89_ecdh halg hm hma hv h
  refine ⟨l, wk, k, h1, h2, h3, fun C X Y D hP hep hpub => ?_⟩
  have hkk := picked_unique h1 h1' h2 h2' h3 h3'
  subst hkk
  obtain ⟨msg, hmsg, h7⟩ := h5 C X Y D hP hep hpub
  obtain ⟨hdr, hT, hS, hK, -⟩ := h6 C X Y hP hep
  refine ⟨msg, hmsg, fun s hs hs0 => ?_⟩
  have ht : (PyVal.str s).truthy = true := by simp [PyVal.truthy, hs0]
  rw [hs, symKid, if_pos ht] at hK
  have e1 := hS "alg" (by decide)
  have e2 := hS "enc" (by decide)
  rw [show entry o.dict "alg" = PyDict.get? o.dict "alg" from rfl, halg] at e1
  rw [show entry o.dict "enc" = PyDict.get? o.dict "enc" from rfl, he] at e2
  have htk := taken_as_jwe hT (shows_str e1) hm (shows_str e2) hen (shows_typ (hS "typ" (by decide)) htyp)
  obtain ⟨o2, hf, hsk, hd⟩ := held_token htk hT (shows_str hK)
  refine ⟨o2, hf, fun rnd2 keys2 k2 hD hkn => ?_⟩
  rw [hd]
  exact h7 o2 rnd2 keys2 keys2 (.str s) k2 hD (.inl ⟨List.ne_nil_of_mem hkn.member, rfl⟩) hsk (hkn.first hs0)

/-! ### Examples -/

/-- The keys of the examples with a label. -/
def exNamed (k : Key) : Key := { k with kid := .str "k1" }

theorem exNamed_real {d : PyDict} {k : Key} (hd : ∀ n v, PyDict.get? d n = some v → ∃ s, v = .str s) :
    RealValues ({ msg := .str "hello", dict := d } : Jwe) [exNamed k] none where
  dict n v hv := by obtain ⟨s, rfl⟩ := hd n v hv; trivial
  jwk v hv := by cases hv
  kids x hx := by rw [List.mem_singleton.mp hx]; trivial
  own_kid v hv := by cases hv
  kid v hv := by cases hv

theorem exists_of_isOk {α : Type} {x : PyM α} (h : x.isOk = true) : ∃ t, x = .ok t := by
  cases x with
  | error e => cases h
  | ok t => exact ⟨t, rfl⟩

/-- `JWE("hello", alg="A128KW", enc="A128CBC-HS256")`. -/
def exNamedWrapper : Jwe := { msg := .str "hello", dict := [("alg", .str "A128KW"), ("enc", .str "A128CBC-HS256")] }

theorem exNamed_wrap : ∃ t, (exNamedWrapper.encrypt toyEnv exRnd [exNamed exShared]).1 = .ok t := by
  have h : (exNamedWrapper.encrypt toyEnv exRnd [exNamed exShared]).1.isOk = true := by decide +kernel
  exact exists_of_isOk h

theorem exNamed_rsa : ∃ t, (exRsaer.encrypt toyEnv exRnd [exNamed exRsaPub]).1 = .ok t := by
  have h : (exRsaer.encrypt toyEnv exRnd [exNamed exRsaPub]).1.isOk = true := by decide +kernel
  exact exists_of_isOk h

theorem exNamed_ecdh : ∃ t, (exAgreer.encrypt toyEnv exRnd [exNamed exEcKey]).1 = .ok t := by
  have h : (exAgreer.encrypt toyEnv exRnd [exNamed exEcKey]).1.isOk = true := by decide +kernel
  exact exists_of_isOk h

/-- C133_wrap: the recipient's first key is another one, without a label. -/
example : ∃ t o2, (exNamedWrapper.encrypt toyEnv exRnd [exNamed exShared]).1 = .ok t ∧ jweFactory (utf8Encode t) = .ok (some o2) ∧
    (o2.decrypt toyEnv exRnd [] [{ exShared with key := .val (.bytes [1, 2]) }, exNamed exShared, exRsaPriv]).1 = .ok (utf8Encode "hello") := by
  obtain ⟨t, ht⟩ := exNamed_wrap
  obtain ⟨l, wk, k, m, h1, -, h2, hm, h3⟩ := C133_wrap (o := exNamedWrapper) toyCipher_lawful toyHashes_lawful exRnd_lengths rfl .a128 rfl .c128 (.inl rfl)
    (exNamed_real (by
      intro n v hv
      simp only [PyDict.get?, List.lookup] at hv
      split at hv
      · cases hv; exact ⟨_, rfl⟩
      · split at hv
        · cases hv; exact ⟨_, rfl⟩
        · cases hv)) (by simp) ht
  cases only_key h1 h2
  cases hm
  obtain ⟨o2, hf, hd⟩ := h3 "k1" rfl (by decide)
  refine ⟨t, o2, ht, hf, hd exRnd _ (exNamed exShared) ⟨_, rfl⟩ ⟨rfl, rfl⟩ ⟨by simp, ⟨.inl rfl, by decide, by decide, by decide⟩, ?_⟩⟩
  intro x hx hk
  simp only [List.mem_cons, List.not_mem_nil, or_false] at hx
  rcases hx with rfl | rfl | rfl
  · cases hk
  · rfl
  · cases hk

/-- C133_rsa. -/
example : ∃ t o2, (exRsaer.encrypt toyEnv exRnd [exNamed exRsaPub]).1 = .ok t ∧ jweFactory (utf8Encode t) = .ok (some o2) ∧
    (o2.decrypt toyEnv exRnd [] [exRsaPriv, exShared, exNamed exRsaPriv]).1 = .ok (utf8Encode "hello") := by
  obtain ⟨t, ht⟩ := exNamed_rsa
  obtain ⟨l, wk, k, c, m, h1, -, h2, -, hm, h3⟩ := C133_rsa (o := exRsaer) toyCipher_lawful toyHashes_lawful toyRsa_lawful toyZlib_lawful exRnd_lengths
    rfl .oaep rfl .c192 (.inl rfl) (exNamed_real (fun n v hv => rsaKw_values _ _ _ hv)) (by intro k v h; cases h) ht
  cases only_key h1 h2
  have hm' : m = utf8Encode "hello" := by
    rcases hm with ⟨s, h, rfl⟩ | h
    · cases h; rfl
    · cases h
  subst hm'
  obtain ⟨o2, hf, hd⟩ := h3 "k1" rfl (by decide)
  refine ⟨t, o2, ht, hf, hd exRnd _ (exNamed exRsaPriv) _ _ ⟨⟨_, rfl⟩, rfl⟩ ⟨⟨_, rfl⟩, rfl⟩ ⟨exRsaPriv_consistent, rfl, rfl⟩
    ⟨by simp, ⟨.inr (.inl rfl), by decide, by decide, by decide⟩, ?_⟩ (by intro h; cases h)⟩
  intro x hx hk
  simp only [List.mem_cons, List.not_mem_nil, or_false] at hx
  rcases hx with rfl | rfl | rfl
  · cases hk
  · cases hk
  · rfl

/-- C133_ecdh. -/
example : ∃ t o2, (exAgreer.encrypt toyEnv exRnd [exNamed exEcKey]).1 = .ok t ∧ jweFactory (utf8Encode t) = .ok (some o2) ∧
    (o2.decrypt toyEnv exRnd [] [exShared, exNamed exEcKey]).1 = .ok (utf8Encode "hello") := by
  obtain ⟨X, Y, hpub, hpt, hsc⟩ := exEcKey_ok
  obtain ⟨t, ht⟩ := exNamed_ecdh
  obtain ⟨l, wk, k, h1, -, h2, h3⟩ := C133_ecdh (o := exAgreer) toyCipher_lawful toyHashes_lawful exRnd_lengths rfl .ec192 trivial rfl .c128 (.inl rfl)
    (exNamed_real (by
      intro n v hv
      simp only [PyDict.get?, List.lookup] at hv
      split at hv
      · cases hv; exact ⟨_, rfl⟩
      · split at hv
        · cases hv; exact ⟨_, rfl⟩
        · cases hv)) (by intro b h; cases h) ht
  cases only_key h1 h2
  obtain ⟨m, hm, h4⟩ := h3 P256 X Y 5 hpt (by intro e h; cases h) hpub
  have hm' : m = utf8Encode "hello" := by
    rcases hm with ⟨s, h, rfl⟩ | h
    · cases h; rfl
    · cases h
  subst hm'
  obtain ⟨o2, hf, hd⟩ := h4 "k1" rfl (by decide)
  refine ⟨t, o2, ht, hf, hd exRnd _ (exNamed exEcKey) hsc ⟨by simp, ⟨.inr (.inl rfl), by decide, by decide, by decide⟩, ?_⟩⟩
  intro x hx hk
  simp only [List.mem_cons, List.not_mem_nil, or_false] at hx
  rcases hx with rfl | rfl
  · cases hk
  · rfl

/-- C133_factory and C133_stale: with keys that all have another label nothing is left to decrypt with. -/
example : ∃ t o2, (exNamedWrapper.encrypt toyEnv exRnd [exNamed exShared]).1 = .ok t ∧ jweFactory (utf8Encode t) = .ok (some o2) ∧
    ∀ E rnd, (o2.decrypt E rnd [] [exShared]).1 = (({} : Jwe).decrypt E rnd (utf8Encode t) []).1 := by
  obtain ⟨t, ht⟩ := exNamed_wrap
  obtain ⟨l, wk, k, h1, -, h2, hdr, hT, hS, hK, -⟩ := C89_wrap (o := exNamedWrapper) rfl .a128
    (exNamed_real (by
      intro n v hv
      simp only [PyDict.get?, List.lookup] at hv
      split at hv
      · cases hv; exact ⟨_, rfl⟩
      · split at hv
        · cases hv; exact ⟨_, rfl⟩
        · cases hv)) ht
  cases only_key h1 h2
  have hkid : PyDict.get? hdr "kid" = some (.str "k1") := shows_str hK
  obtain ⟨⟨o2, hf⟩, -, -⟩ := taken_as_jwe hT (shows_str (hS "alg" (by decide))) .a128 (shows_str (hS "enc" (by decide))) .c128
    (shows_typ (hS "typ" (by decide)) (.inl rfl))
  obtain ⟨j, h, hj, hh, rfl, hx⟩ := C133_factory hf
  have hhd : h = hdr := by
    obtain ⟨s0, ek, iv, ct, tag, hJ⟩ := hT
    obtain ⟨hb', hu⟩ := jweParts_unpack hJ
    rw [hj] at hu
    have hjj := Except.ok.inj hu
    subst hjj
    cases hh
    rfl
  subst hhd
  refine ⟨t, _, ht, hf, fun E rnd => ?_⟩
  rw [hx E rnd (fun k => (PyVal.str "k1").pyEq k.kid) (by
    intro k
    constructor
    · intro hk v hv _
      rw [hkid] at hv
      cases hv
      exact hk
    · intro hn
      exact hn _ hkid (by decide))]
  rfl

/-- C133_ignored: three labels and none. -/
example (E : Env) (rnd : JweRnd) (token : Bytes) :
    (({} : Jwe).decrypt E rnd token [exNamed exShared, exNamed exRsaPriv, exNamed exEcKey]).1 =
      (({} : Jwe).decrypt E rnd token [exShared, exRsaPriv, exEcKey]).1 :=
  C133_ignored E rnd token [exShared, exRsaPriv, exEcKey] (fun _ => .str "k1") _ _

end Verif
