import Verif.Props.JwkSet
import Verif.Props.JwsSign
import Verif.Props.Real
/-
C98: a signer publishes its key set (`dump_jwks`), a verifier that has nothing but the published document
(`load_jwks`) accepts the signer's tokens.
-/

namespace Verif
open Spec

/-- What signs belongs to what is published: a `SYMKey`; an `RSAKey` whose library object has the published
modulus and exponent; an `ECKey` whose point is that of its scalar, on the curve of the algorithm. -/
def Spec.WholeKey (k : Key) : SigAlg → Prop
  | .hs _ => ∃ kk, k.mat = .sym kk
  | .rs _ | .ps _ => ∃ m N r, k.mat = .rsa m ∧ RsaHolds m N ∧ k.key = .rsa r ∧ r.n = N.n ∧ r.e = N.e
  | .es h => OwnKey k (.es h)

theorem Holds.unique {v : PyVal} {a b : Nat} (h : Holds v (some a)) (h' : Holds v (some b)) : a = b := by
  cases h
  generalize hv : PyVal.int (a : Int) = v at h'
  cases h'
  simpa using hv

theorem exported_labels {E : Env} {k k' : Key} (h : Exported E k k') : SameLabels k' k := by
  cases h <;> assumption

theorem exportable_kid {E : Env} {k : Key} (h : Exportable E k) : ∃ s, k.kid = .str s := by
  cases h with
  | rsa _ _ ht => exact ht.kid
  | ec _ _ _ _ _ ht => exact ht.kid
  | sym _ _ _ ht => exact ht.kid

theorem not_ec {k : Key} {m : Mat} (h : k.mat = m) (hm : ∀ crv x y d c, m ≠ .ec crv x y d c) : ¬ IsEc k := by
  rintro ⟨crv, x, y, d, c, h'⟩
  exact hm _ _ _ _ _ (h.symm.trans h')

/-- The published half accepts what the key signed. -/
theorem exported_accepts {E : Env} (hR : E.R.Lawful) {a : SigAlg} {k k' : Key} (hx : Exported E k k')
    (hown : WholeKey k a) {rnd : Nat} {input sig : Bytes} {ka : KeyArg} (hka : k.getKey true = .ok ka)
    (hs : a.sign E rnd input ka = .ok sig) : Accepts E k' input sig a := by
  have hpub : ∀ {m N r r' m' N'}, k.mat = .rsa m → RsaHolds m N → k.key = .rsa r → r.n = N.n → r.e = N.e →
      k.mat = .rsa m' → RsaHolds m' N' → E.R.construct [(N'.n : Int), (N'.e : Int)] = .ok r' →
      r.SamePublic r' := by
    intro m N r r' m' N' h1 h2 h3 h4 h5 h6 h7 h8
    rw [h1] at h6
    cases h6
    have e1 := Holds.unique h2.n h7.n
    have e2 := Holds.unique h2.e h7.e
    obtain ⟨g1, g2, -⟩ := hR.construct_ne _ _ _ h8
    exact ⟨by rw [g1, h4, e1], by rw [g2, h5, e2]⟩
  cases a with
  | hs h =>
    obtain ⟨kk, hkk⟩ := hown
    cases hx with
    | rsa ha => rw [ha] at hkk; cases hkk
    | ec ha => rw [ha] at hkk; cases hkk
    | sym ha hk hb hk' hl =>
      rw [getKey_not_ec (not_ec ha (by simp)), hk] at hka
      obtain rfl := Except.ok.inj hka
      simp only [SigAlg.sign, hmacKey, Bind.bind, Except.bind, Except.ok.injEq] at hs
      exact ⟨not_ec hb (by simp), _, hk', hs.symm⟩
  | rs h =>
    obtain ⟨m, N, r, hm, hN, hk, hn, he⟩ := hown
    cases hx with
    | ec ha => rw [hm] at ha; cases ha
    | sym ha => rw [hm] at ha; cases ha
    | rsa ha hN' hb hm' hr hk' hl =>
      rw [getKey_not_ec (not_ec hm (by simp)), hk] at hka
      obtain rfl := Except.ok.inj hka
      simp only [SigAlg.sign, rsaKeyArg, Bind.bind, Except.bind] at hs
      exact ⟨not_ec hb (by simp), _, hk',
        hR.pkcs1_sig h _ _ _ _ (hpub hm hN hk hn he ha hN' hr) hs⟩
  | ps h =>
    obtain ⟨m, N, r, hm, hN, hk, hn, he⟩ := hown
    cases hx with
    | ec ha => rw [hm] at ha; cases ha
    | sym ha => rw [hm] at ha; cases ha
    | rsa ha hN' hb hm' hr hk' hl =>
      rw [getKey_not_ec (not_ec hm (by simp)), hk] at hka
      obtain rfl := Except.ok.inj hka
      simp only [SigAlg.sign, rsaKeyArg, Bind.bind, Except.bind] at hs
      exact ⟨not_ec hb (by simp), _, hk',
        hR.pss_sig h _ _ _ _ _ (hpub hm hN hk hn he ha hN' hr) hs⟩
  | es h =>
    have hown' : OwnKey k (.es h) := hown
    obtain ⟨C, P, hC, hP, hv⟩ := sign_accepts hR hown' hka hs
    obtain ⟨_, crv, d, i, j, c, -, hm, hi, hj, -⟩ := hown
    have hPij : P = some (i, j) := by
      rcases hP with ⟨_, _, _, _, _, i', j', h1, h2, h3, -, -, h6⟩ | ⟨h1, -⟩
      · rw [hm] at h1
        cases h1
        simp only [PyVal.asInt?, Option.some.injEq] at h2 h3
        rw [h6, h2, h3]
      · exact absurd ⟨_, _, _, _, _, hm⟩ h1
    cases hx with
    | rsa ha => rw [hm] at ha; cases ha
    | sym ha => rw [hm] at ha; cases ha
    | @ec _ _ _ _ _ X Y ha hx hy hb hl =>
      rw [hm] at ha
      cases ha
      have h1 : i = X := by cases hx; rfl
      have h2 : j = Y := by cases hy; rfl
      subst h1 h2
      exact ⟨C, P, hC, .inl ⟨_, _, _, _, _, _, _, hb, rfl, rfl, hi, hj, hPij⟩, hv⟩

/-- What a token signed with one of the keys `ks` consists of, and that the published half of the signing key
is tried and accepts it. -/
theorem publish_core (E : Env) (hR : E.R.Lawful) (o : Jwx) (ks ks' : List Key) (hkne : ks ≠ [])
    (prot : PyDict) (rnd : Nat) (t name : String) (a : SigAlg) (hsup : SupportedAlg name a)
    (hA : AlgFor o ks (.str name)) (hp : (PyVal.dict prot).jsonable = true)
    (hex : ∀ k ∈ ks, Exportable E k)
    (hty : ∀ v, PyDict.get? o.dict "typ" = some v → v.jsonable = true)
    (hpk : ∀ k ∈ ks, k.kid.truthy = true ∨ ((PyDict.get? prot "kid").getD .none).truthy = false)
    (hcty : PyDict.get? prot "cty" = none ∨ ∃ c, PyDict.get? prot "cty" = some (.str c))
    (hmsg : PartOk o.msg) (hjb : JsonBytesLawful E.jsonBytes)
    (hown : ∀ kid, ∀ k ∈ ks, SignSuitable a name kid k → WholeKey k a)
    (hx : List.Forall₂ (Exported E) ks ks')
    (h : (o.signCompact E ks prot rnd).1 = .ok t) (an : Bool) (sigalg : PyVal)
    (hsa : sigalg.truthy = true → sigalg = .str name) :
    ∃ k hdr p sig s0 m wk, k ∈ ks ∧ Token (utf8Encode t) s0 (b64e p) (.dict hdr) p sig ∧
      SignedHeader o prot (.str name) (some k) hdr ∧ PartBytes o.msg p ∧ Message E.jsonBytes hdr p m ∧
      WantedKid [] hdr wk ∧ (k.kid.truthy = true → wk = k.kid) ∧
      (∀ k', Exported E k k' → Accepts E k' (s0 ++ 46 :: b64e p) sig a) ∧
      ((∀ x ∈ ks', Suitable a name wk x → ¬ Accepts E x (s0 ++ 46 :: b64e p) sig a →
          SoftFail E a (s0 ++ 46 :: b64e p) sig x) →
        ∃ k', (({} : Jwx).verifyVerbose E (utf8Encode t) ks' an sigalg).1 = .ok (m, some k')) := by
  obtain ⟨k, kid, ka, hdr, p, sig, s0, hkm, hss, htok, hspec, hPB, -, hka, hsig⟩ := sign_parts E o ks hkne
    prot rnd t name a hsup hA hp
    (fun k hk => by obtain ⟨s, hs⟩ := exportable_kid (hex k hk); rw [hs]; rfl) hty hmsg h
  have hcty' : PyDict.get? hdr "cty" = none ∨ ∃ c, PyDict.get? hdr "cty" = some (.str c) := by
    rw [hspec.2.2.2 "cty" (by decide) (by decide) (by decide)]; exact hcty
  obtain ⟨s2, hb2, hun⟩ := unpack_of_token htok
  obtain ⟨m, hm⟩ := C10_total E.jsonBytes hjb _ _ hun hdr rfl hcty'
  have hM : Message E.jsonBytes hdr p m := (message_iff E.jsonBytes _ hdr p m rfl rfl).mp hm
  obtain ⟨wk, hwk⟩ := wantedKid_exists [] hdr
  have hk2 := hspec.2.1
  simp only at hk2
  have hwk2 : k.kid.truthy = true → wk = k.kid := by
    intro hkt
    rw [if_pos hkt] at hk2
    rcases hwk with h | ⟨-, h⟩ | ⟨-, h, -⟩
    · simp [PyDict.get?] at h
    · rw [hk2] at h; exact (Option.some.inj h).symm
    · rw [hk2] at h; cases h
  have hwk3 : wk.truthy = true → wk = k.kid := by
    intro hwt
    by_cases hkt : k.kid.truthy = true
    · exact hwk2 hkt
    · exfalso
      rw [if_neg hkt] at hk2
      rcases hpk k hkm with h | h
      · exact hkt h
      · rw [← hk2] at h
        rcases hwk with h' | ⟨-, h'⟩ | ⟨-, -, rfl⟩
        · simp [PyDict.get?] at h'
        · rw [h'] at h
          simp only [Option.getD_some] at h
          rw [hwt] at h
          cases h
        · simp [none_truthy] at hwt
  have hacc : ∀ k', Exported E k k' → Accepts E k' (s0 ++ 46 :: b64e p) sig a :=
    fun k' hk' => exported_accepts hR hk' (hown kid k hkm hss) hka hsig
  refine ⟨k, hdr, p, sig, s0, m, wk, hkm, htok, hspec, hPB, hM, hwk, hwk2, hacc, fun hsoft => ?_⟩
  obtain ⟨k', hk'm, hk'⟩ : ∃ k' ∈ ks', Exported E k k' := by
    clear hex hpk hown hsoft hA h hkne
    induction hx with
    | nil => cases hkm
    | cons h1 h2 ih =>
      rcases List.mem_cons.mp hkm with rfl | hkm
      · exact ⟨_, by simp, h1⟩
      · obtain ⟨x, hx1, hx2⟩ := ih hkm
        exact ⟨x, by simp [hx1], hx2⟩
  have hl := exported_labels hk'
  obtain ⟨ks0, hks0⟩ := exportable_kid (hex k hkm)
  refine (C20_some_key E {} (utf8Encode t) ks' (by rintro rfl; cases hk'm) an sigalg m _ _ hdr p sig name a
    wk htok hspec.1 hsup (by simp [PyDict.get?]) hsa hwk hM hsoft).mpr ⟨k', hk'm, ⟨?_, ?_, ?_⟩, hacc k' hk'⟩
  · rw [hl.kty]; exact hss.1.1
  · intro hwt
    rw [hwk3 hwt, hl.kid, hks0]
    simp [PyVal.pyEq]
  · rw [hl.alg]; exact hss.1.2.2

theorem forall₂_right {α β : Type} {R : α → β → Prop} {l : List α} {l' : List β} (h : List.Forall₂ R l l') :
    ∀ y ∈ l', ∃ x ∈ l, R x y := by
  induction h with
  | nil => intro y hy; cases hy
  | cons h1 h2 ih =>
    intro y hy
    rcases List.mem_cons.mp hy with rfl | hy
    · exact ⟨_, by simp, h1⟩
    · obtain ⟨x, hx1, hx2⟩ := ih y hy
      exact ⟨x, by simp [hx1], hx2⟩

/-- **C98.** Keys with different identifiers.  Whatever `sign_compact` returns is accepted by a verifier that
knows nothing but the exported key set; the key reported is the published half of the signing key. -/
theorem C98_publish (E : Env) (hR : E.R.Lawful) (hjb : JsonBytesLawful E.jsonBytes) (o : Jwx) (ks : List Key)
    (hkne : ks ≠ []) (hex : ∀ k ∈ ks, Exportable E k)
    (hkid : ∀ k ∈ ks, k.kid ≠ .str "") (hdist : ∀ k ∈ ks, ∀ l ∈ ks, k.kid = l.kid → k = l)
    (prot : PyDict) (rnd : Nat) (t name : String) (a : SigAlg) (hsup : SupportedAlg name a)
    (hA : AlgFor o ks (.str name)) (hp : (PyVal.dict prot).jsonable = true)
    (hty : ∀ v, PyDict.get? o.dict "typ" = some v → v.jsonable = true)
    (hcty : PyDict.get? prot "cty" = none ∨ ∃ c, PyDict.get? prot "cty" = some (.str c))
    (hmsg : PartOk o.msg)
    (hown : ∀ kid, ∀ k ∈ ks, SignSuitable a name kid k → WholeKey k a)
    (h : (o.signCompact E ks prot rnd).1 = .ok t) (an : Bool) (sigalg : PyVal)
    (hsa : sigalg.truthy = true → sigalg = .str name) :
    ∃ s ks' k k' hdr p m, Keys.dumpJwks ks = .ok s ∧ Keys.loadJwks E [] s = (.ok (), ks') ∧
      (({} : Jwx).verifyVerbose E (utf8Encode t) ks' an sigalg).1 = .ok (m, some k') ∧
      k ∈ ks ∧ k' ∈ ks' ∧ Exported E k k' ∧
      SignedHeader o prot (.str name) (some k) hdr ∧ PartBytes o.msg p ∧ Message E.jsonBytes hdr p m := by
  obtain ⟨s, ks', hs1, hs2, hx⟩ := C84_jwks E ks [] hex
  have htr : ∀ k ∈ ks, k.kid.truthy = true := by
    intro k hk
    obtain ⟨x, hx⟩ := exportable_kid (hex k hk)
    have := hkid k hk
    rw [hx] at this ⊢
    simpa [PyVal.truthy] using this
  obtain ⟨k, hdr, p, sig, s0, m, wk, hkm, htok, hspec, hPB, hM, hwk, hwk2, hacc, hfin⟩ := publish_core E hR o
    ks ks' hkne prot rnd t name a hsup hA hp hex hty (fun k hk => .inl (htr k hk)) hcty hmsg hjb hown hx h an
    sigalg hsa
  have hsame : ∀ x ∈ ks', Suitable a name wk x → Exported E k x := by
    intro x hxm hsx
    obtain ⟨y, hym, hyx⟩ := forall₂_right hx x hxm
    have hl := exported_labels hyx
    have h1 := hsx.2.1
    rw [hwk2 (htr k hkm), hl.kid] at h1
    have h2 := h1 (htr k hkm)
    obtain ⟨a1, e1⟩ := exportable_kid (hex k hkm)
    obtain ⟨a2, e2⟩ := exportable_kid (hex y hym)
    rw [e1, e2] at h2
    simp only [PyVal.pyEq, beq_iff_eq] at h2
    obtain rfl := hdist k hkm y hym (by rw [e1, e2, h2])
    exact hyx
  obtain ⟨k', hk'⟩ := hfin fun x hxm hsx hn => absurd (hacc x (hsame x hxm hsx)) hn
  obtain ⟨t0, t1, hdr', p', sig', name', a', kid', ht', hal', hsup', hin, -, hkid', hsuit, -, -⟩ :=
    C13_sound E {} (utf8Encode t) ks' an sigalg m k' hk'
  obtain ⟨rfl, rfl, hh, rfl, rfl⟩ := token_unique htok ht'
  cases hh
  have hne' : ks' ≠ [] := by
    rintro rfl
    cases hx
    exact hkne rfl
  rw [hspec.1] at hal'
  cases hal'
  obtain rfl := wantedKid_unique hkid' hwk
  have haa : a' = a := by
    have e1 := (signerOf_iff (.str name) a).mpr ⟨name, rfl, hsup⟩
    have e2 := (signerOf_iff (.str name) a').mpr ⟨name, rfl, hsup'⟩
    rw [e1] at e2
    simpa using e2.symm
  subst haa
  exact ⟨s, ks', k, k', hdr, p, m, hs1, by simpa using hs2, hk', hkm, hin hne', hsame k' (hin hne') hsuit,
    hspec, hPB, hM⟩

/-! ### Without identifiers: HMAC and RSA with the standard algorithms -/

/-- A key that the algorithm can at least be tried with. -/
def Spec.Shaped (k : Key) : SigAlg → Prop
  | .hs _ => ¬ IsEc k ∧ ∃ secret, k.key = .val (.bytes secret)
  | .rs _ | .ps _ => ¬ IsEc k ∧ ∃ r, k.key = .rsa r
  | .es _ => False

/-- With the standard algorithms an HMAC or RSA key that does not accept only makes the loop go on. -/
theorem softFail_std {E : Env} (hE : Standard E) {a : SigAlg} {k : Key} (hk : Shaped k a) {input sig : Bytes}
    (hn : ¬ Accepts E k input sig a) : SoftFail E a input sig k := by
  cases a with
  | hs h => exact softFail_hmac E h input sig k hk.1 _ hk.2.choose_spec hn
  | rs h =>
    obtain ⟨hec, r, hr⟩ := hk
    obtain ⟨f, hf⟩ := hE.rsa
    refine ⟨.badSignature, ?_, .inl rfl⟩
    have hv : E.R.verify15 h r input sig = .ok (Real.verify15 h r input sig) := by rw [hf]; rfl
    rw [getKey_not_ec hec, hr]
    simp only [SigAlg.verify, rsaKeyArg, Bind.bind, Except.bind]
    cases hb : Real.verify15 h r input sig with
    | true => exact absurd ⟨hec, r, hr, by rw [hv, hb]⟩ hn
    | false => rw [hv, hb]
  | ps h =>
    obtain ⟨hec, r, hr⟩ := hk
    obtain ⟨f, hf⟩ := hE.rsa
    refine ⟨.badSignature, ?_, .inl rfl⟩
    have hv : E.R.verifyPss h r input sig = .ok (Real.verifyPss h r input sig) := by rw [hf]; rfl
    rw [getKey_not_ec hec, hr]
    simp only [SigAlg.verify, rsaKeyArg, Bind.bind, Except.bind]
    cases hb : Real.verifyPss h r input sig with
    | true => exact absurd ⟨hec, r, hr, by rw [hv, hb]⟩ hn
    | false => rw [hv, hb]; rfl
  | es h => exact hk.elim

/-- **C97.** HMAC and RSA: the round trip with the standard algorithms and nothing assumed of the outcome of
trying the other keys, only that each is of its kind. -/
theorem C97_jws_any {E : Env} (hE : Standard E) (o : Jwx) (keys : List Key) (hkne : keys ≠ [])
    (prot : PyDict) (rnd : Nat) (t name : String) (a : SigAlg) (hsup : SupportedAlg name a)
    (hA : AlgFor o keys (.str name)) (hp : (PyVal.dict prot).jsonable = true)
    (hkj : ∀ k ∈ keys, k.kid.jsonable = true ∧ k.kid.pyEq k.kid = true)
    (hty : ∀ v, PyDict.get? o.dict "typ" = some v → v.jsonable = true)
    (hpk : ∀ k ∈ keys, k.kid.truthy = true ∨ ((PyDict.get? prot "kid").getD .none).truthy = false)
    (hcty : PyDict.get? prot "cty" = none ∨ ∃ c, PyDict.get? prot "cty" = some (.str c))
    (hmsg : PartOk o.msg) (hjb : JsonBytesLawful E.jsonBytes)
    (hsh : ∀ k ∈ keys, TypeFor a k.kty → Shaped k a)
    (h : (o.signCompact E keys prot rnd).1 = .ok t) (an : Bool) (sigalg : PyVal)
    (hsa : sigalg.truthy = true → sigalg = .str name) :
    ∃ m k hdr p key, (({} : Jwx).verifyVerbose E (utf8Encode t) keys an sigalg).1 = .ok (m, some k) ∧
      SignedHeader o prot (.str name) (some key) hdr ∧ PartBytes o.msg p ∧
      Message E.jsonBytes hdr p m := by
  refine C97_jws hE o keys hkne prot rnd t name a hsup hA hp hkj hty hpk hcty hmsg hjb
    (fun kid k hk hs => ?_) (fun kid input sig k hk hs hn => softFail_std hE (hsh k hk hs.1) hn) h an sigalg hsa
  have := hsh k hk hs.1.1
  cases a with
  | hs h => exact this.1
  | rs h => trivial
  | ps h => trivial
  | es h => exact this.elim

theorem spelled_str {lo up s : String} (h : Spelled lo up (.str s)) : s = lo ∨ s = up := by
  rcases h with h | h | h | h
  · exact .inl (by simpa using h)
  · exact .inr (by simpa using h)
  · cases h
  · cases h

theorem exported_shaped {E : Env} {k k' : Key} (he : Exportable E k) (hx : Exported E k k') {a : SigAlg}
    (ha : ∀ h, a ≠ .es h) (ht : TypeFor a k'.kty) : Shaped k' a := by
  rw [(exported_labels hx).kty] at ht
  cases he with
  | rsa hm hN hl =>
    rw [hl.kty] at ht
    cases hx with
    | ec h => rw [hm] at h; cases h
    | sym h => rw [hm] at h; cases h
    | rsa _ _ hb _ _ hk =>
      cases a with
      | hs h => rcases spelled_str ht with h | h <;> exact absurd h (by decide)
      | rs h => exact ⟨not_ec hb (by simp), _, hk⟩
      | ps h => exact ⟨not_ec hb (by simp), _, hk⟩
      | es h => exact absurd rfl (ha h)
  | ec hm _ _ _ _ hl =>
    rw [hl.kty] at ht
    cases a with
    | hs h => rcases spelled_str ht with h | h <;> exact absurd h (by decide)
    | rs h => rcases spelled_str ht with h | h <;> exact absurd h (by decide)
    | ps h => rcases spelled_str ht with h | h <;> exact absurd h (by decide)
    | es h => exact absurd rfl (ha h)
  | sym hm _ _ hl =>
    rw [hl.kty] at ht
    cases hx with
    | ec h => rw [hm] at h; cases h
    | rsa h => rw [hm] at h; cases h
    | sym _ _ hb hk =>
      cases a with
      | hs h => exact ⟨not_ec hb (by simp), _, hk⟩
      | rs h => rcases spelled_str ht with h | h <;> exact absurd h (by decide)
      | ps h => rcases spelled_str ht with h | h <;> exact absurd h (by decide)
      | es h => exact absurd rfl (ha h)

/-- **C98.** The same without any condition on the identifiers, for HMAC and RSA with the standard
algorithms: of several keys of the right type the verifier tries one after the other. -/
theorem C98_publish_any {E : Env} (hE : Standard E) (hjb : JsonBytesLawful E.jsonBytes) (o : Jwx)
    (ks : List Key) (hkne : ks ≠ []) (hex : ∀ k ∈ ks, Exportable E k)
    (prot : PyDict) (rnd : Nat) (t name : String) (a : SigAlg) (hsup : SupportedAlg name a)
    (hes : ∀ h, a ≠ .es h)
    (hA : AlgFor o ks (.str name)) (hp : (PyVal.dict prot).jsonable = true)
    (hty : ∀ v, PyDict.get? o.dict "typ" = some v → v.jsonable = true)
    (hpk : ∀ k ∈ ks, k.kid.truthy = true ∨ ((PyDict.get? prot "kid").getD .none).truthy = false)
    (hcty : PyDict.get? prot "cty" = none ∨ ∃ c, PyDict.get? prot "cty" = some (.str c))
    (hmsg : PartOk o.msg)
    (hown : ∀ kid, ∀ k ∈ ks, SignSuitable a name kid k → WholeKey k a)
    (h : (o.signCompact E ks prot rnd).1 = .ok t) (an : Bool) (sigalg : PyVal)
    (hsa : sigalg.truthy = true → sigalg = .str name) :
    ∃ s ks' k k' hdr p m, Keys.dumpJwks ks = .ok s ∧ Keys.loadJwks E [] s = (.ok (), ks') ∧
      (({} : Jwx).verifyVerbose E (utf8Encode t) ks' an sigalg).1 = .ok (m, some k') ∧
      SignedHeader o prot (.str name) (some k) hdr ∧ PartBytes o.msg p ∧ Message E.jsonBytes hdr p m := by
  obtain ⟨s, ks', hs1, hs2, hx⟩ := C84_jwks E ks [] hex
  obtain ⟨k, hdr, p, sig, s0, m, wk, hkm, htok, hspec, hPB, hM, hwk, hwk2, hacc, hfin⟩ := publish_core E
    hE.rsaLaw o ks ks' hkne prot rnd t name a hsup hA hp hex hty hpk hcty hmsg hjb hown hx h an sigalg hsa
  obtain ⟨k', hk'⟩ := hfin fun x hxm hsx hn => by
    obtain ⟨y, hym, hyx⟩ := forall₂_right hx x hxm
    exact softFail_std hE (exported_shaped (hex y hym) hyx hes hsx.1) hn
  exact ⟨s, ks', k, k', hdr, p, m, hs1, by simpa using hs2, hk', hspec, hPB, hM⟩

/-! ### The published set does not sign -/

/-- **C98.** With the standard algorithms the exported set is of no use for signing with RSA or ECDSA: whatever
the object, the header and the randomness, `sign_compact` with the loaded keys returns no token. -/
theorem C98_cannot_sign {E : Env} (hE : Standard E) (ks : List Key) (hkne : ks ≠ [])
    (hex : ∀ k ∈ ks, Exportable E k) :
    ∃ s ks', Keys.dumpJwks ks = .ok s ∧ Keys.loadJwks E [] s = (.ok (), ks') ∧
      ∀ (o : Jwx) (prot : PyDict) (rnd : Nat) (t name : String) (a : SigAlg), SupportedAlg name a →
        (∀ h, a ≠ .hs h) → AlgFor o ks' (.str name) → (o.signCompact E ks' prot rnd).1 ≠ .ok t := by
  obtain ⟨s, ks', hs1, hs2, hx⟩ := C84_jwks E ks [] hex
  refine ⟨s, ks', hs1, by simpa using hs2, ?_⟩
  intro o prot rnd t name a hsup ha hA h
  obtain ⟨alg, key, s0, s1, hA', -, -, hc⟩ := signCompact_ok h
  have halg : alg = .str name := algFor_unique hA' hA
  subst halg
  obtain ⟨hnone, -, -⟩ := supported_alg2keytype hsup
  rcases hc with ⟨h2, -, -⟩ | ⟨name', a', k', l, kid, ka, sig, h2, h3, rfl, hl, -, hfs, hka, hsig, -⟩
  · cases h2; exact hnone (by decide)
  cases h2
  have haa : a' = a := by
    have e1 := (signerOf_iff (.str name) a).mpr ⟨name, rfl, hsup⟩
    have e2 := (signerOf_iff (.str name) a').mpr ⟨name, rfl, h3⟩
    rw [e1] at e2
    simpa using e2.symm
  subst haa
  have hne' : ks' ≠ [] := by rintro rfl; cases hx; exact hkne rfl
  obtain rfl : l = ks' := by
    rcases hl with ⟨-, h⟩ | ⟨h, -⟩
    · exact h
    · exact absurd h hne'
  obtain ⟨pre, post, hlk, hss, -⟩ := hfs
  obtain ⟨k, hkm, hkx⟩ := forall₂_right hx k' (by rw [hlk]; simp)
  have hty := hss.1.1
  rw [(exported_labels hkx).kty] at hty
  obtain ⟨f, hf⟩ := hE.rsa
  cases hkx with
  | ec _ _ _ hb =>
    simp [Key.getKey, hb, PyVal.truthy] at hka
  | sym hm hk hb hk' =>
    have : k.kty = .str "oct" := by
      cases hex k hkm with
      | rsa h => rw [hm] at h; cases h
      | ec h => rw [hm] at h; cases h
      | sym _ _ _ hl => exact hl.kty
    rw [this] at hty
    cases a' with
    | hs h => exact ha h rfl
    | rs h => rcases spelled_str hty with h | h <;> exact absurd h (by decide)
    | ps h => rcases spelled_str hty with h | h <;> exact absurd h (by decide)
    | es h => rcases spelled_str hty with h | h <;> exact absurd h (by decide)
  | @rsa _ _ _ r _ _ hb _ hr hk' =>
    rw [getKey_not_ec (not_ec hb (by simp)), hk'] at hka
    obtain rfl := Except.ok.inj hka
    obtain ⟨-, -, hpriv⟩ := hE.rsaLaw.construct_ne _ _ _ hr
    have hno : ∀ c x, Real.rsaPriv r c ≠ .ok x := fun c x => by
      unfold Real.rsaPriv
      rw [hpriv]
      split <;> simp
    cases a' with
    | hs h => exact ha h rfl
    | rs h =>
      simp only [SigAlg.sign, rsaKeyArg, Bind.bind, hf] at hsig
      obtain ⟨r', h0, h1⟩ := bind_ok_iff.mp hsig
      cases h0
      obtain ⟨em, -, h2⟩ := bind_ok_iff.mp h1
      obtain ⟨x, h3, -⟩ := bind_ok_iff.mp h2
      exact hno _ _ h3
    | ps h =>
      simp only [SigAlg.sign, rsaKeyArg, Bind.bind, hf] at hsig
      obtain ⟨r', h0, h1⟩ := bind_ok_iff.mp hsig
      cases h0
      obtain ⟨em, -, h2⟩ := bind_ok_iff.mp h1
      obtain ⟨x, h3, -⟩ := bind_ok_iff.mp h2
      exact hno _ _ h3
    | es h =>
      simp only [SigAlg.sign, Bind.bind] at hsig
      obtain ⟨C, -, h2⟩ := bind_ok_iff.mp hsig
      obtain ⟨d, h3, -⟩ := bind_ok_iff.mp h2
      simp [esPriv] at h3

/-! ### Examples -/

theorem exSet_exportable (E : Env) {r : RsaKey} (hr : E.R.construct [(3233 : Nat), (17 : Nat)] = .ok r) :
    ∀ k ∈ [exRsa, exEc, exSym], Exportable E k := by
  intro k hk
  simp only [List.mem_cons, List.not_mem_nil, or_false] at hk
  rcases hk with rfl | rfl | rfl
  · obtain ⟨m, hm, hN⟩ := exRsa_holds
    exact .rsa hm hN exRsa_text rfl hr
  · exact .ec rfl (.number (by decide)) (.number (by decide)) (.number (n := 1) (by decide))
      (by decide +kernel) exEc_text
  · exact .sym rfl rfl (by decide) ⟨rfl, ⟨_, rfl⟩, ⟨_, rfl⟩, ⟨_, rfl⟩⟩

theorem exSet_distinct : (∀ k ∈ [exRsa, exEc, exSym], k.kid ≠ .str "") ∧
    ∀ k ∈ [exRsa, exEc, exSym], ∀ l ∈ [exRsa, exEc, exSym], k.kid = l.kid → k = l := by
  constructor
  · intro k hk
    simp only [List.mem_cons, List.not_mem_nil, or_false] at hk
    rcases hk with rfl | rfl | rfl <;> simp [exRsa, exEc, exSym]
  · intro k hk l hl
    simp only [List.mem_cons, List.not_mem_nil, or_false] at hk hl
    rcases hk with rfl | rfl | rfl <;> rcases hl with rfl | rfl | rfl <;> simp [exRsa, exEc, exSym]

theorem exSet_whole (h : HashAlg) (name : String) (kid : PyVal) : ∀ k ∈ [exRsa, exEc, exSym],
    SignSuitable (.rs h) name kid k → WholeKey k (.rs h) := by
  intro k hk hs
  simp only [List.mem_cons, List.not_mem_nil, or_false] at hk
  have ht : Spelled "rsa" "RSA" k.kty := hs.1.1
  rcases hk with rfl | rfl | rfl
  · obtain ⟨m, hm, hN⟩ := exRsa_holds
    exact ⟨m, exNums, _, hm, hN, rfl, rfl, rfl⟩
  · rcases spelled_str ht with h | h <;> exact absurd h (by decide)
  · rcases spelled_str ht with h | h <;> exact absurd h (by decide)

theorem exSet_whole_es (name : String) (kid : PyVal) : ∀ k ∈ [exRsa, exEc, exSym],
    SignSuitable (.es .sha256) name kid k → WholeKey k (.es .sha256) := by
  intro k hk hs
  simp only [List.mem_cons, List.not_mem_nil, or_false] at hk
  have ht : Spelled "ec" "EC" k.kty := hs.1.1
  rcases hk with rfl | rfl | rfl
  · rcases spelled_str ht with h | h <;> exact absurd h (by decide)
  · exact ⟨P256, _, _, _, _, _, (esCurve_iff .sha256 P256).mp (by decide +kernel), rfl, by decide, by decide,
      by decide +kernel⟩
  · rcases spelled_str ht with h | h <;> exact absurd h (by decide)

/-- A set of an RSA, an EC and a symmetric key; a token signed with ECDSA. -/
example : ∃ s ks' m k', Keys.dumpJwks [exRsa, exEc, exSym] = .ok s ∧ Keys.loadJwks toyEnv [] s = (.ok (), ks') ∧
    (({} : Jwx).verifyVerbose toyEnv (utf8Encode "eyJhbGciOiJFUzI1NiIsImtpZCI6ImUxIn0.eyJhIjoxfQ.axfR8uEsQkf4vOblY6RA8ncDfYEt6zOg9KE5RdiYwpbQkRxbQ3OlsUgmMSu5HoojxWzG9HdYqBFO5IJ8IgYYDg")
      ks' false .none).1 = .ok (m, some k') ∧ m = .dict [("a", .int 1)] := by
  obtain ⟨s, ks', k, k', hdr, p, m, h1, h2, h3, -, -, -, h4, h5, h6⟩ := C98_publish toyEnv toyRsa_lawful
    (by intro b e h; cases h; rfl) { msg := .dict [("a", .int 1)], dict := [("alg", .str "ES256")] }
    [exRsa, exEc, exSym] (by simp) (exSet_exportable toyEnv rfl) exSet_distinct.1 exSet_distinct.2 [] 0
    "eyJhbGciOiJFUzI1NiIsImtpZCI6ImUxIn0.eyJhIjoxfQ.axfR8uEsQkf4vOblY6RA8ncDfYEt6zOg9KE5RdiYwpbQkRxbQ3OlsUgmMSu5HoojxWzG9HdYqBFO5IJ8IgYYDg"
    "ES256" (.es .sha256) .ES256 (.inl ⟨rfl, rfl⟩) rfl
    (by intro v h; exact absurd h (by simp [PyDict.get?, List.lookup])) (.inl rfl) rfl
    (exSet_whole_es "ES256") (by decide +kernel) false .none (by simp [none_truthy])
  refine ⟨s, ks', m, k', h1, h2, h3, C11_json_message _ hdr p _ m (.inl ⟨_, rfl⟩) h5 ?_ h6⟩
  rw [h4.2.2.2 "cty" (by decide) (by decide) (by decide)]
  rfl

/-- Two symmetric keys without identifiers; HMAC with SHA-256. -/
def exPair : List Key := [{ exSym with kid := .str "" }, { exSym with kid := .str "", key := .val (.bytes [1]) }]

theorem exPair_exportable (E : Env) : ∀ k ∈ exPair, Exportable E k := by
  intro k hk
  simp only [exPair, List.mem_cons, List.not_mem_nil, or_false] at hk
  rcases hk with rfl | rfl
  · exact .sym rfl rfl (by decide) ⟨rfl, ⟨_, rfl⟩, ⟨_, rfl⟩, ⟨_, rfl⟩⟩
  · exact .sym rfl rfl (by decide) ⟨rfl, ⟨_, rfl⟩, ⟨_, rfl⟩, ⟨_, rfl⟩⟩

example : ∃ s ks' m k', Keys.dumpJwks exPair = .ok s ∧ Keys.loadJwks stdEnv [] s = (.ok (), ks') ∧
    (({} : Jwx).verifyVerbose stdEnv (utf8Encode "eyJhbGciOiJIUzI1NiJ9.eyJhIjoxfQ.bDpAVqC1RFMtGIztQJOZuhj54qCQ6mpEHz255gb2_UQ")
      ks' false .none).1 = .ok (m, some k') := by
  obtain ⟨s, ks', k, k', hdr, p, m, h1, h2, h3, -⟩ := C98_publish_any stdEnv_standard
    (by intro b e h; cases h; rfl) { msg := .dict [("a", .int 1)], dict := [("alg", .str "HS256")] }
    exPair (by simp [exPair]) (exPair_exportable stdEnv) [] 0
    "eyJhbGciOiJIUzI1NiJ9.eyJhIjoxfQ.bDpAVqC1RFMtGIztQJOZuhj54qCQ6mpEHz255gb2_UQ" "HS256" (.hs .sha256) .HS256
    (by intro h; simp) (.inl ⟨rfl, rfl⟩) rfl
    (by intro v h; exact absurd h (by simp [PyDict.get?, List.lookup])) (by intro k _; right; rfl) (.inl rfl) rfl
    (by
      intro kid k hk _
      simp only [exPair, List.mem_cons, List.not_mem_nil, or_false] at hk
      rcases hk with rfl | rfl <;> exact ⟨_, rfl⟩)
    (by decide +kernel) false .none (by simp [none_truthy])
  exact ⟨s, ks', m, k', h1, h2, h3⟩

/-- The same set; a token signed with RSA. -/
example : ∃ s ks' m k', Keys.dumpJwks [exRsa, exEc, exSym] = .ok s ∧ Keys.loadJwks toyEnv [] s = (.ok (), ks') ∧
    (({} : Jwx).verifyVerbose toyEnv (utf8Encode "eyJhbGciOiJSUzI1NiIsImtpZCI6ImsxIn0.eyJhIjoxfQ.AWV5SmhiR2NpT2lKU1V6STFOaUlzSW10cFpDSTZJbXN4SW4wLmV5SmhJam94ZlE")
      ks' false .none).1 = .ok (m, some k') := by
  obtain ⟨s, ks', k, k', hdr, p, m, h1, h2, h3, -⟩ := C98_publish toyEnv toyRsa_lawful
    (by intro b e h; cases h; rfl) { msg := .dict [("a", .int 1)], dict := [("alg", .str "RS256")] }
    [exRsa, exEc, exSym] (by simp) (exSet_exportable toyEnv rfl) exSet_distinct.1 exSet_distinct.2 [] 0
    "eyJhbGciOiJSUzI1NiIsImtpZCI6ImsxIn0.eyJhIjoxfQ.AWV5SmhiR2NpT2lKU1V6STFOaUlzSW10cFpDSTZJbXN4SW4wLmV5SmhJam94ZlE"
    "RS256" (.rs .sha256) .RS256 (.inl ⟨rfl, rfl⟩) rfl
    (by intro v h; exact absurd h (by simp [PyDict.get?, List.lookup])) (.inl rfl) rfl
    (exSet_whole _ "RS256") (by decide +kernel) false .none (by simp [none_truthy])
  exact ⟨s, ks', m, k', h1, h2, h3⟩

/-- The published keys do not sign. -/
example : ∃ s ks', Keys.dumpJwks [exRsa, exEc, exSym] = .ok s ∧ Keys.loadJwks stdEnv [] s = (.ok (), ks') ∧
    ∀ t, (({ msg := .dict [("a", .int 1)], dict := [("alg", .str "ES256")] } : Jwx).signCompact stdEnv
      ks' [] 7).1 ≠ .ok t := by
  obtain ⟨s, ks', h1, h2, h3⟩ := C98_cannot_sign stdEnv_standard [exRsa, exEc, exSym] (by simp)
    (exSet_exportable (r := ⟨3233, 17, none⟩) stdEnv (by decide +kernel))
  exact ⟨s, ks', h1, h2, fun t => h3 _ [] 7 t "ES256" _ .ES256 (by intro h; simp) (.inl ⟨rfl, rfl⟩)⟩

end Verif
