import Verif.Model.JweDirect
import Verif.Props.JweHeader
import Verif.Props.Interop
import Verif.Props.JweForgery
/-
C145: the class `JWE_EC` used by itself.
-/

namespace Verif
open Spec

/-! ### Histories of an object -/

/-- A call on a `JWE_EC` object. -/
inductive Spec.EcCall
  | setup (j : Jwt) (k : Key)
  | decrypt (j : Jwt)

/-- The object after a call, whether the call returned or raised. -/
def Spec.ecAfter (E : Env) (s : EcObj) : EcCall → EcObj
  | .setup j k => (s.decSetup E j k).2
  | .decrypt _ => s

/-- The object after the calls, from a fresh one. -/
def Spec.ecRun (E : Env) (l : List EcCall) : EcObj := l.foldl (ecAfter E) {}

/-- A token of (at least) five parts. -/
def Spec.FiveParts (j : Jwt) (iv ct tag : Bytes) : Prop :=
  ∃ p0 p1 rest, j.part = p0 :: p1 :: iv :: ct :: tag :: rest

/-- The call does not return a content key. -/
def Spec.NoKey (E : Env) : EcCall → Prop
  | .setup j k => ∀ s : EcObj, ∀ c, (s.decSetup E j k).1 ≠ .ok c
  | .decrypt _ => True

/-- The call is no `dec_setup`. -/
def Spec.NoSetup : EcCall → Prop
  | .setup _ _ => False
  | .decrypt _ => True

theorem decSetup_five {E : Env} {s : EcObj} {j : Jwt} {k : Key} {iv ct tag : Bytes} (h : FiveParts j iv ct tag) :
    s.decSetup E j k = match ecDecSetup E j k with
      | .error e => (.error e, ⟨some j.headers, some iv, some ct, some tag, s.cek⟩)
      | .ok r => (.ok r.1, ⟨some j.headers, some iv, some ct, some tag, some r.1⟩) := by
  obtain ⟨p0, p1, rest, hp⟩ := h
  unfold EcObj.decSetup
  simp only [Jwt.partAt, hp, List.getElem?_cons_zero, List.getElem?_cons_succ]
  cases ecDecSetup E j k <;> rfl

/-- The outcome of `dec_setup` does not depend on the object. -/
theorem decSetup_any (E : Env) (s s' : EcObj) (j : Jwt) (k : Key) :
    (s.decSetup E j k).1 = (s'.decSetup E j k).1 := by
  unfold EcObj.decSetup
  cases j.partAt 2 with
  | error e => rfl
  | ok iv =>
    cases j.partAt 3 with
    | error e => rfl
    | ok ct =>
      cases j.partAt 4 with
      | error e => rfl
      | ok tag => cases ecDecSetup E j k <;> rfl

theorem after_noKey {E : Env} {s : EcObj} {c : EcCall} (h : NoKey E c) : (ecAfter E s c).cek = s.cek := by
  cases c with
  | decrypt j => rfl
  | setup j k =>
    have h := h s
    revert h
    unfold ecAfter EcObj.decSetup
    simp only
    cases j.partAt 2 with
    | error e => intro _; rfl
    | ok iv =>
      cases j.partAt 3 with
      | error e => intro _; rfl
      | ok ct =>
        cases j.partAt 4 with
        | error e => intro _; rfl
        | ok tag =>
          cases ecDecSetup E j k with
          | error e => intro _; rfl
          | ok r => intro h; exact absurd rfl (h _)

theorem run_noKey {E : Env} {l : List EcCall} {s : EcObj} (h : ∀ c ∈ l, NoKey E c) :
    (l.foldl (ecAfter E) s).cek = s.cek := by
  induction l generalizing s with
  | nil => rfl
  | cons c l ih =>
    rw [List.foldl_cons, ih fun x hx => h x (List.mem_cons_of_mem _ hx), after_noKey (h c (by simp))]

theorem run_noSetup {E : Env} {l : List EcCall} {s : EcObj} (h : ∀ c ∈ l, NoSetup c) :
    l.foldl (ecAfter E) s = s := by
  induction l generalizing s with
  | nil => rfl
  | cons c l ih =>
    have hc := h c (by simp)
    rw [List.foldl_cons, ih fun x hx => h x (List.mem_cons_of_mem _ hx)]
    cases c with
    | setup j k => exact hc.elim
    | decrypt j => rfl

/-- **C145.** Before any `dec_setup` has returned, `decrypt` raises AttributeError, whatever was called. -/
theorem C145_before {E : Env} {l : List EcCall} (h : ∀ c ∈ l, NoKey E c) (j : Jwt) :
    (ecRun E l).decrypt E j = .error .attributeError := by
  have : (ecRun E l).cek = none := run_noKey (s := {}) h
  unfold EcObj.decrypt
  rw [this]

/-- **C145.** What `decrypt(token)` does after any calls: the content key is the one of the last `dec_setup` that
returned, `enc`, iv, ciphertext and tag are those of the last `dec_setup` at all, which may have raised, and of
the token only the header segment counts. -/
theorem C145_outcome {E : Env} {pre post pre' post' : List EcCall} {j1 j2 : Jwt} {k1 k2 : Key}
    {cek iv ct tag : Bytes} {h2 : PyDict} {encv : PyVal}
    (hl : pre ++ .setup j1 k1 :: post = pre' ++ .setup j2 k2 :: post')
    (hkey : (EcObj.decSetup E {} j1 k1).1 = .ok cek) (hlast : ∀ c ∈ post, NoKey E c)
    (hpost' : ∀ c ∈ post', NoSetup c) (hfive : FiveParts j2 iv ct tag) (hne : cek ≠ [])
    (hh : j2.headers = .dict h2) (henc : PyDict.get? h2 "enc" = some encv) {j : Jwt} {s0 : Bytes} {rest : List Bytes}
    (hj : j.b64part = s0 :: rest) :
    (ecRun E (pre ++ .setup j1 k1 :: post)).decrypt E j = jweDecrypt E encv cek ct s0 iv tag := by
  have hcek : (ecRun E (pre ++ .setup j1 k1 :: post)).cek = some cek := by
    unfold ecRun
    rw [List.foldl_append, List.foldl_cons, run_noKey hlast]
    generalize pre.foldl (ecAfter E) {} = s
    rw [decSetup_any E {} s] at hkey
    revert hkey
    unfold ecAfter EcObj.decSetup
    simp only
    cases j1.partAt 2 with
    | error e => intro h; cases h
    | ok iv =>
      cases j1.partAt 3 with
      | error e => intro h; cases h
      | ok ct =>
        cases j1.partAt 4 with
        | error e => intro h; cases h
        | ok tag =>
          cases ecDecSetup E j1 k1 with
          | error e => intro h; cases h
          | ok r => intro h; cases h; rfl
  rw [hl] at hcek ⊢
  have hrun : ∃ s : EcObj, ecRun E (pre' ++ .setup j2 k2 :: post') = (s.decSetup E j2 k2).2 := by
    unfold ecRun
    rw [List.foldl_append, List.foldl_cons, run_noSetup hpost']
    exact ⟨_, rfl⟩
  obtain ⟨s, hs⟩ := hrun
  rw [hs, decSetup_five hfive] at hcek ⊢
  have hfinal : ∀ c, c = some cek →
      EcObj.decrypt E ⟨some j2.headers, some iv, some ct, some tag, c⟩ j = jweDecrypt E encv cek ct s0 iv tag := by
    rintro c rfl
    unfold EcObj.decrypt
    simp only [if_neg hne, hh, PyVal.getItem, henc, Bind.bind, Except.bind, Jwt.b64ProtectedHeader, hj,
      List.getElem?_cons_zero]
  split at hcek
  · exact hfinal _ hcek
  · exact hfinal _ hcek

/-- **C145.** Of the token handed to `decrypt` only the header segment matters. -/
theorem C145_ignored {E : Env} (l : List EcCall) {j j' : Jwt} {s0 : Bytes} {r r' : List Bytes}
    (h : j.b64part = s0 :: r) (h' : j'.b64part = s0 :: r') :
    (ecRun E l).decrypt E j = (ecRun E l).decrypt E j' := by
  unfold EcObj.decrypt Jwt.b64ProtectedHeader
  simp only [h, h', List.getElem?_cons_zero]

/-! ### Agreement with `JWE.decrypt` -/

theorem ecLoop_ok {E : Env} {rnd : JweRnd} {j : Jwt} {s : Bytes × Bytes × Bytes × Bytes} {alg : PyVal}
    {r : Bytes × PyVal} {l : List Key} {i : Nat} (h : decryptLoop E .ec rnd j s alg i l = .ok r) :
    ecDecrypt E j s = .ok r.1 := by
  induction l generalizing i with
  | nil => cases h
  | cons k l ih =>
    unfold decryptLoop at h
    split at h
    · cases h
    · simp only [decryptBy] at h
      cases hx : ecDecrypt E j s with
      | ok m => rw [hx] at h; simp only [Except.map] at h; cases h; rfl
      | error e =>
        rw [hx] at h
        simp only [Except.map] at h
        split at h
        · rw [← hx]; exact ih h
        · cases h

theorem ecTry_ok {E : Env} {rnd : JweRnd} {j : Jwt} {s : Bytes × Bytes × Bytes × Bytes} {alg : PyVal}
    {r : Bytes × PyVal} {l : List Key} {cek : Bytes} (h : decryptTry E .ec rnd j s alg l cek = .ok r) :
    ecDecrypt E j s = .ok r.1 := by
  unfold decryptTry at h
  split at h
  · exact ecLoop_ok h
  · simp only [decryptBy] at h
    cases hx : ecDecrypt E j s with
    | ok m => rw [hx] at h; simp only [Except.map] at h; cases h; rfl
    | error e =>
      rw [hx] at h
      simp only [Except.map] at h
      split at h
      · rw [← hx]; exact ecLoop_ok h
      · cases h

theorem ecDecSetup_five {E : Env} {j : Jwt} {k : Key} {r : Bytes × Bytes × Bytes × Bytes}
    (h : ecDecSetup E j k = .ok r) : FiveParts j r.2.1 r.2.2.1 r.2.2.2 := by
  unfold ecDecSetup at h
  simp only [Bind.bind] at h
  obtain ⟨iv, h2, h⟩ := bind_ok_iff.mp h
  obtain ⟨ct, h3, h⟩ := bind_ok_iff.mp h
  obtain ⟨tag, h4, h⟩ := bind_ok_iff.mp h
  obtain ⟨_, -, h⟩ := bind_ok_iff.mp h
  obtain ⟨_, -, h⟩ := bind_ok_iff.mp h
  obtain ⟨_, -, h⟩ := bind_ok_iff.mp h
  obtain ⟨_, -, h⟩ := bind_ok_iff.mp h
  obtain ⟨_, -, h⟩ := bind_ok_iff.mp h
  obtain ⟨⟨_, _, _, _, _⟩, -, h⟩ := bind_ok_iff.mp h
  have hr : r.2 = (iv, ct, tag) := by
    split at h
    · obtain ⟨⟨_, _⟩, -, h⟩ := bind_ok_iff.mp h
      obtain ⟨⟨_, _, _, _, _⟩, -, h⟩ := bind_ok_iff.mp h
      obtain ⟨_, -, h⟩ := bind_ok_iff.mp h
      cases h; rfl
    · split at h
      · obtain ⟨⟨_, _, _, _, _⟩, -, h⟩ := bind_ok_iff.mp h
        obtain ⟨_, -, h⟩ := bind_ok_iff.mp h
        obtain ⟨_, -, h⟩ := bind_ok_iff.mp h
        obtain ⟨_, -, h⟩ := bind_ok_iff.mp h
        cases h; rfl
      · cases h
  rw [hr]
  unfold Jwt.partAt at h2 h3 h4
  unfold FiveParts
  generalize j.part = p at *
  match p, h2, h3, h4 with
  | p0 :: p1 :: a :: b :: c :: rest, h2, h3, h4 =>
    simp only [List.getElem?_cons_zero, List.getElem?_cons_succ] at h2 h3 h4
    cases h2; cases h3; cases h4
    exact ⟨p0, p1, rest, rfl⟩

/-- **C145.** What `JWE.decrypt` opens with a key, `dec_setup` and `decrypt` of a `JWE_EC` object open with it,
whatever was called on the object before. -/
theorem C145_opens {E : Env} {o : Jwe} {rnd : JweRnd} {token msg : Bytes} {keys l : List Key} {wk : PyVal} {k : Key}
    {j : Jwt} {h' : PyDict} {alg : String} {m : KeyMgmt} (ht : Jwt.unpack token = .ok j)
    (hj : j.headers = .dict h') (halg : PyDict.get? h' "alg" = some (.str alg)) (hm : MgmtName alg m)
    (hma : IsAgreement m) (he : EffKeys o.toJwx keys l) (hk : SignKid o.toJwx wk) (hf : FirstPicked m alg wk l k)
    (hd : (o.decrypt E rnd token keys).1 = .ok msg) (before : List EcCall) :
    (∃ cek, ((ecRun E before).decSetup E j k).1 = .ok cek) ∧
      (ecRun E (before ++ [.setup j k])).decrypt E j = .ok msg := by
  obtain ⟨rest, hd1, hd2⟩ := decrypt_single (E := E) (rnd := rnd) ht hj halg hm he hk hf []
  rw [hd2] at hd
  have hbind : ∃ s r, ecDecSetup E j k = .ok s ∧ decryptTry E .ec rnd j s (.str alg) (k :: rest) s.1 = .ok r ∧
      r.1 = msg := by
    rw [hd1] at hd
    cases m with
    | wrap n => cases hma
    | rsa p => cases hma
    | direct =>
      simp only at hd
      cases hs : ecDecSetup E j k with
      | error e => rw [hs] at hd; cases hd
      | ok s =>
        rw [hs] at hd
        simp only [ebind_ok] at hd
        cases hr : decryptTry E .ec rnd j s (.str alg) (k :: rest) s.1 with
        | error e => rw [hr] at hd; cases hd
        | ok r => rw [hr] at hd; cases hd; exact ⟨s, r, rfl, hr, rfl⟩
    | agreeWrap n =>
      simp only at hd
      cases hs : ecDecSetup E j k with
      | error e => rw [hs] at hd; cases hd
      | ok s =>
        rw [hs] at hd
        simp only [ebind_ok] at hd
        cases hr : decryptTry E .ec rnd j s (.str alg) (k :: rest) s.1 with
        | error e => rw [hr] at hd; cases hd
        | ok r => rw [hr] at hd; cases hd; exact ⟨s, r, rfl, hr, rfl⟩
  obtain ⟨s, r, hs, hr, rfl⟩ := hbind
  have hdec := ecTry_ok hr
  have hfive := ecDecSetup_five hs
  refine ⟨⟨s.1, by rw [decSetup_five hfive, hs]⟩, ?_⟩
  have hrun : ecRun E (before ++ [.setup j k]) =
      ⟨some j.headers, some s.2.1, some s.2.2.1, some s.2.2.2, some s.1⟩ := by
    unfold ecRun
    rw [List.foldl_append, List.foldl_cons, List.foldl_nil]
    unfold ecAfter
    simp only [decSetup_five hfive, hs]
  rw [hrun]
  exact hdec

/-- **C145.** A message encrypted by `JWE.encrypt` for the public point of a recipient is opened by a `JWE_EC` object
with the private number: `dec_setup`, then `decrypt`. -/
theorem C145_roundtrip {E : Env} (hC : E.C.Lawful) (hH : E.H.Lawful) {o : Jwe} {rnd : JweRnd}
    (hr : RndLengths rnd) {k : Key} {t : String} {alg : String} {m : KeyMgmt}
    (halg : PyDict.get? o.dict "alg" = some (.str alg)) (hm : MgmtName alg m) (hma : IsAgreement m)
    (hv : RealValues o [k] none)
    (hcek : ∀ b, PyDict.get? o.dict "cek" = some (.bytes b) → b.length % 8 = 0 ∧ b.length < 2 ^ 61)
    (h : (o.encrypt E rnd [k]).1 = .ok t) {C : NistCurve} {X Y : Int} {D : Nat} (hk : HasPoint C X Y k)
    (hepk : ∀ e, o.epk = some e → EphemeralKey C e) (hD : C.publicKeyFor D = some (X, Y))
    {k2 : Key} (hk2 : HasScalar D k2) (hp2 : EncPicked m alg .none k2) (before : List EcCall) :
    ∃ j msg, Jwt.unpack (utf8Encode t) = .ok j ∧ MsgBytes o.msg msg ∧
      (∃ cek, ((ecRun E before).decSetup E j k2).1 = .ok cek) ∧
      (ecRun E (before ++ [.setup j k2])).decrypt E j = .ok msg := by
  obtain ⟨l, wk, k', heff, -, hf, H⟩ := C59_roundtrip hC hH hr halg hm hma hv hcek h
  cases only_key heff hf
  obtain ⟨msg, hmsg, H⟩ := H C X Y D hk hepk hD
  obtain ⟨l', wk', k', heff', -, hf', H'⟩ := C89_ecdh halg hm hma hv h
  cases only_key heff' hf'
  obtain ⟨hdr, ⟨s0, ek, iv, ct, tag, hparts⟩, hshow, -⟩ := H' C X Y hk hepk
  obtain ⟨w, ha, htold⟩ : Shows hdr "alg" (some (.str alg)) := by
    have := hshow "alg" (by decide)
    unfold entry at this
    rwa [if_neg (by decide), if_neg (by decide), halg] at this
  cases htold
  obtain ⟨hb, hun⟩ := jweParts_unpack hparts
  have h2 : EffKeys (({} : Jwe).toJwx) [k2] [k2] := .inl ⟨by simp, rfl⟩
  have h3 : SignKid (({} : Jwe).toJwx) .none := .inr ⟨rfl, .inl ⟨rfl, rfl⟩⟩
  have hf2 : FirstPicked m alg .none [k2] k2 := ⟨[], [], rfl, hp2, by simp⟩
  exact ⟨_, msg, hun, hmsg,
    C145_opens hun rfl ha hm hma h2 h3 hf2 (H {} rnd [k2] [k2] .none k2 hk2 h2 h3 hf2) before⟩

/-- **C145.** Encryption does succeed, and the `JWE_EC` object opens what it makes. -/
theorem C145_total {E : Env} (hC : E.C.Lawful) (hH : E.H.Lawful) {rnd : JweRnd} (hr : RndLengths rnd)
    (hu : rnd.apu.length < 2 ^ 32) (hv : rnd.apv.length < 2 ^ 32)
    {alg enc : String} {m : KeyMgmt} {kl il : Nat} (hm : MgmtName alg m) (hma : IsAgreement m)
    (he : EncName enc kl il) {msgv : PyVal} {msg : Bytes} (hmsg : MsgBytes msgv msg)
    (hl : msg.length ≤ 16 * 2 ^ 32) {k k2 : Key} {C : NistCurve} {X Y : Int} {D : Nat}
    (hk : HasPoint C X Y k) (hkd : HasScalar D k) (hk2 : HasScalar D k2)
    (hD : 0 < D ∧ D < C.N) (hpub : C.publicKeyFor D = some (X, Y))
    (heph : ∀ y, (C.keyPair rnd.eph).2 ≠ some (0, y))
    (hp : EncPicked m alg .none k) (hp2 : EncPicked m alg .none k2) (hkid : k.kid.truthy = false) :
    ∃ o t j, Jwe.new E msgv [("alg", .str alg), ("enc", .str enc)] = .ok o ∧
      (o.encrypt E rnd [k]).1 = .ok t ∧ Jwt.unpack (utf8Encode t) = .ok j ∧
      ∀ before, (∃ cek, ((ecRun E before).decSetup E j k2).1 = .ok cek) ∧
        (ecRun E (before ++ [.setup j k2])).decrypt E j = .ok msg := by
  obtain ⟨o, t, ho, ht, -⟩ := C59_total hC hH hr hu hv hm hma he hmsg hl hk hkd hk2 hD hpub heph hp hp2 hkid
  have ho' := ho
  rw [jwe_new_short] at ho'
  cases ho'
  have key := fun before => C145_roundtrip hC hH hr (alg := alg) (m := m) rfl hm hma (realValues_short _ _ _ hkid)
    (by intro b hb; simp [PyDict.get?, List.lookup_cons] at hb) ht hk (by intro e he; cases he) hpub hk2 hp2 before
  obtain ⟨j, msg', hun, -⟩ := key []
  refine ⟨_, t, j, ho, ht, hun, fun before => ?_⟩
  obtain ⟨j', msg'', hun', hm'', h1, h2⟩ := key before
  rw [hun] at hun'
  cases hun'
  have : msg'' = msg := by
    rcases hmsg with ⟨s, rfl, rfl⟩ | rfl <;> rcases hm'' with ⟨s', h, rfl⟩ | h <;> cases h <;> rfl
  subst this
  exact ⟨h1, h2⟩

/-! ### What the object accepts -/

/-- **C145.** `decrypt(token)` returns `m` exactly if the tag handed over last belongs, under the key of the last
successful `dec_setup`, to the header segment of the token and the iv and ciphertext handed over last, and `m` is the
content of that ciphertext. -/
theorem C145_exact {E : Env} (hC : E.C.Lawful) {pre post pre' post' : List EcCall} {j1 j2 : Jwt} {k1 k2 : Key}
    {cek iv ct tag : Bytes} {h2 : PyDict} {enc : String}
    (hl : pre ++ .setup j1 k1 :: post = pre' ++ .setup j2 k2 :: post')
    (hkey : (EcObj.decSetup E {} j1 k1).1 = .ok cek) (hlast : ∀ c ∈ post, NoKey E c)
    (hpost' : ∀ c ∈ post', NoSetup c) (hfive : FiveParts j2 iv ct tag) (hne : cek ≠ [])
    (hh : j2.headers = .dict h2) (henc : PyDict.get? h2 "enc" = some (.str enc)) {j : Jwt} {s0 : Bytes}
    {rest : List Bytes} (hj : j.b64part = s0 :: rest) (m : Bytes) :
    (ecRun E (pre ++ .setup j1 k1 :: post)).decrypt E j = .ok m ↔
      Authentic E enc cek s0 iv ct tag ∧ Opened E.C enc cek iv ct m := by
  rw [C145_outcome hl hkey hlast hpost' hfive hne hh henc hj]
  exact C111_exact hC

theorem decSetup_noEpk {E : Env} {s : EcObj} {j : Jwt} {k : Key} {h : PyDict} {iv ct tag : Bytes}
    (hfive : FiveParts j iv ct tag) (hh : j.headers = .dict h) (hn : PyDict.get? h "epk" = none) :
    (s.decSetup E j k).1 = .error .generic := by
  have : ecDecSetup E j k = .error .generic := by
    obtain ⟨p0, p1, rest, hp⟩ := hfive
    unfold ecDecSetup headerEpk
    simp [Jwt.partAt, hp, hh, PyVal.contains, PyDict.has, hn, Bind.bind, Except.bind]
  rw [decSetup_five hfive, this]

/-- **C145 (departure).** A `dec_setup` that raises leaves the content key of the one before in force: whoever knows
that key can make a token without an ephemeral key, for any message, that `dec_setup` refuses and that `decrypt` then
opens. -/
theorem C145_stale {E : Env} (hC : E.C.Lawful) (hH : E.H.Lawful) {before : List EcCall} {j1 : Jwt} {k1 : Key}
    {cek : Bytes} (hkey : (EcObj.decSetup E {} j1 k1).1 = .ok cek) {enc : String} {n i : Nat} (he : EncName enc n i)
    (hn : cek.length = n) {iv : Bytes} (hi : iv.length = i) {hs : String} {h2 : PyDict}
    (hload : jsonLoads hs = .ok (.dict h2)) (hepk : PyDict.get? h2 "epk" = none)
    (henc : PyDict.get? h2 "enc" = some (.str enc)) (hlen : (b64e (utf8Encode hs)).length < 2 ^ 61) {m : Bytes}
    (hm : m.length ≤ 16 * 2 ^ 32) :
    ∃ t2 j2 ct tag, JweParts t2 (b64e (utf8Encode hs)) (.dict h2) [] iv ct tag ∧ Jwt.unpack t2 = .ok j2 ∧
      ∀ k2, ((ecRun E (before ++ [.setup j1 k1])).decSetup E j2 k2).1 = .error .generic ∧
        (ecRun E (before ++ [.setup j1 k1, .setup j2 k2])).decrypt E j2 = .ok m := by
  have hne : cek ≠ [] := by rintro rfl; cases he <;> simp at hn
  have hine : iv ≠ [] := by rintro rfl; cases he <;> simp at hi
  obtain ⟨ct, tag, hes⟩ := encSetup_total hC hH (rnd := exRnd) he (m := m) (aad := b64e (utf8Encode hs)) hn hi hm hlen
  obtain ⟨m', hm', -, hdec⟩ := encSetup_roundtrip hC hH hne hine hes
  cases hm'
  have hparts : JweParts _ (b64e (utf8Encode hs)) (.dict h2) [] iv ct tag := ⟨rfl, hs, rfl, hload⟩
  obtain ⟨hb, hun⟩ := jweParts_unpack hparts
  refine ⟨_, _, ct, tag, hparts, hun, fun k2 => ?_⟩
  have hfive : FiveParts (Jwt.mk (.dict h2) [b64e (utf8Encode hs), b64e [], b64e iv, b64e ct, b64e tag]
      [hb, [], iv, ct, tag]) iv ct tag := ⟨_, _, _, rfl⟩
  refine ⟨decSetup_noEpk hfive rfl hepk, ?_⟩
  rw [C145_outcome (pre := before) (post := [.setup _ k2]) (pre' := before ++ [.setup j1 k1]) (post' := [])
    (k2 := k2) (by simp)
    hkey ?_ (by simp) hfive hne rfl henc rfl]
  · exact hdec
  · intro c hc
    rw [List.mem_singleton.mp hc]
    intro s c'
    rw [decSetup_noEpk hfive rfl hepk]
    simp

theorem aesKeyOk_of_unwrap {C : BlockCipher} {kek w c : Bytes} (h : aesUnwrapKey C kek w = .ok c) : aesKeyOk kek = true := by
  unfold aesUnwrapKey aesUnwrapKeyAndIV at h
  simp only [Bind.bind] at h
  obtain ⟨_, h1, -⟩ := bind_ok_iff.mp h
  obtain ⟨_, -, h1⟩ := bind_ok_iff.mp h1
  obtain ⟨_, h2, -⟩ := bind_ok_iff.mp h1
  by_contra hk
  unfold aesNew at h2
  simp [hk] at h2

/-- **C145.** The second segment can be replaced so that `dec_setup` returns the empty key, without knowledge of any
key; `decrypt` then refuses, whatever the other segments are. -/
theorem C145_empty {E : Env} {j j' : Jwt} {k : Key} {c p0 iv ct tag : Bytes} {rest : List Bytes} {h : PyDict}
    {alg : String} {n : Nat} (hok : (EcObj.decSetup E {} j k).1 = .ok c) (hh : j.headers = .dict h)
    (halg : PyDict.get? h "alg" = some (.str alg)) (hm : MgmtName alg (.agreeWrap n))
    (hh' : j'.headers = .dict h) (hp' : j'.part = p0 :: List.replicate 8 0xa6 :: iv :: ct :: tag :: rest)
    (before : List EcCall) (x : Jwt) :
    ((ecRun E before).decSetup E j' k).1 = .ok [] ∧
      (ecRun E (before ++ [.setup j' k])).decrypt E x = .error .generic := by
  have hfive' : FiveParts j' iv ct tag := ⟨_, _, _, hp'⟩
  have hset : ecDecSetup E j' k = .ok ([], iv, ct, tag) := by
    have h0 : ∃ r, ecDecSetup E j k = .ok r := by
      unfold EcObj.decSetup at hok
      cases h2 : j.partAt 2 with
      | error e => simp only [h2] at hok; cases hok
      | ok iv0 =>
        cases h3 : j.partAt 3 with
        | error e => simp only [h2, h3] at hok; cases hok
        | ok ct0 =>
          cases h4 : j.partAt 4 with
          | error e => simp only [h2, h3, h4] at hok; cases hok
          | ok tag0 =>
            cases h5 : ecDecSetup E j k with
            | error e => simp only [h2, h3, h4, h5] at hok; cases hok
            | ok r => exact ⟨r, rfl⟩
    obtain ⟨r, h0⟩ := h0
    have hA : j.headers.getItem "alg" = .ok (.str alg) := by rw [hh]; simp only [PyVal.getItem, halg]
    have hne : PyVal.str alg ≠ .str "ECDH-ES" := by cases hm <;> decide
    unfold ecDecSetup at h0 ⊢
    rw [hh'] 
    rw [hh] at h0 hA
    simp only [Bind.bind] at h0 ⊢
    obtain ⟨_, -, h1⟩ := bind_ok_iff.mp h0
    obtain ⟨_, -, h1⟩ := bind_ok_iff.mp h1
    obtain ⟨_, -, h1⟩ := bind_ok_iff.mp h1
    obtain ⟨ev, e1, h1⟩ := bind_ok_iff.mp h1
    obtain ⟨ep, e2, h1⟩ := bind_ok_iff.mp h1
    obtain ⟨apu, e3, h1⟩ := bind_ok_iff.mp h1
    obtain ⟨apv, e4, h1⟩ := bind_ok_iff.mp h1
    obtain ⟨al, e5, h1⟩ := bind_ok_iff.mp h1
    rw [hA] at e5
    cases e5
    obtain ⟨⟨_, ex, ey, _, ec⟩, e6, h1⟩ := bind_ok_iff.mp h1
    simp only [if_neg hne] at h1
    cases hkw : ecKwAlg (.str alg) with
    | none => rw [hkw] at h1; cases h1
    | some pn =>
      obtain ⟨post, nn⟩ := pn
      rw [hkw] at h1
      simp only at h1
      obtain ⟨⟨_, _, _, d, _⟩, e7, h1⟩ := bind_ok_iff.mp h1
      obtain ⟨kek, e8, h1⟩ := bind_ok_iff.mp h1
      obtain ⟨jek, -, h1⟩ := bind_ok_iff.mp h1
      obtain ⟨c', e9, -⟩ := bind_ok_iff.mp h1
      simp only [Jwt.partAt, hp', List.getElem?_cons_zero, List.getElem?_cons_succ, ebind_ok, e1, e2, e3, e4, hA, e6,
        if_neg hne, hkw, e7, e8, unwrap_a6 E.C (aesKeyOk_of_unwrap e9)]
  refine ⟨by rw [decSetup_five hfive', hset], ?_⟩
  unfold ecRun
  rw [List.foldl_append, List.foldl_cons, List.foldl_nil]
  unfold ecAfter
  simp only [decSetup_five hfive', hset, EcObj.decrypt, if_true]

/-! ### Examples -/

theorem exEc_total : ∃ o t j, Jwe.new toyEnv (.str "hello") [("alg", .str "ECDH-ES+A192KW"), ("enc", .str "A128CBC-HS256")] = .ok o ∧
    (o.encrypt toyEnv exRnd [exEcKey]).1 = .ok t ∧ Jwt.unpack (utf8Encode t) = .ok j ∧
    ∀ before, (∃ cek, ((ecRun toyEnv before).decSetup toyEnv j exEcKey).1 = .ok cek) ∧
      (ecRun toyEnv (before ++ [.setup j exEcKey])).decrypt toyEnv j = .ok (utf8Encode "hello") := by
  obtain ⟨X, Y, h1, h2, h3⟩ := exEcKey_ok
  refine C145_total (E := toyEnv) toyCipher_lawful toyHashes_lawful exRnd_lengths (by decide +kernel) (by decide +kernel)
    .ec192 trivial .c128 (.inl ⟨_, rfl, rfl⟩) (by decide +kernel) h2 h3 h3 (by decide +kernel) h1 ?_
    ⟨.inr (.inl rfl), by decide, by decide, by decide⟩ ⟨.inr (.inl rfl), by decide, by decide, by decide⟩ (by decide)
  have : ((P256.keyPair exRnd.eph).2.map fun p => decide (p.1 = 0)) = some false := by decide +kernel
  intro y hy
  rw [hy] at this
  cases this

/-- The token of `exEc_total` with another second segment. -/
example : ∃ j, (∃ t o, (Jwe.encrypt toyEnv o exRnd [exEcKey]).1 = .ok t ∧ Jwt.unpack (utf8Encode t) = .ok j) ∧
    ∀ before x, ((ecRun toyEnv before).decSetup toyEnv
        ⟨j.headers, [], [[], List.replicate 8 0xa6, [1], [2], [3]]⟩ exEcKey).1 = .ok [] ∧
      (ecRun toyEnv (before ++ [.setup ⟨j.headers, [], [[], List.replicate 8 0xa6, [1], [2], [3]]⟩ exEcKey])).decrypt toyEnv x =
        .error .generic := by
  obtain ⟨o, t, j, ho, ht, hun, hall⟩ := exEc_total
  obtain ⟨⟨cek, hcek⟩, -⟩ := hall []
  refine ⟨j, ⟨t, o, ht, hun⟩, fun before x => ?_⟩
  rw [jwe_new_short] at ho
  cases ho
  obtain ⟨X, Y, h1, h2, h3⟩ := exEcKey_ok
  obtain ⟨l, wk, k, heff, -, hf, H⟩ := C89_ecdh (E := toyEnv) (alg := "ECDH-ES+A192KW") rfl .ec192 trivial
    (realValues_short _ _ _ (by decide)) ht
  cases only_key heff hf
  obtain ⟨hdr, ⟨s0, ek, iv, ct, tag, hparts⟩, hshow, -⟩ := H P256 X Y h2 (by intro e he; cases he)
  obtain ⟨w, he, htold⟩ : Shows hdr "alg" (some (.str "ECDH-ES+A192KW")) := hshow "alg" (by decide)
  cases htold
  obtain ⟨hb, hun'⟩ := jweParts_unpack hparts
  rw [hun] at hun'
  cases hun'
  exact C145_empty hcek rfl he .ec192 rfl rfl before x

/-- The hypotheses of `C145_stale` are met: the first token is one of `JWE.encrypt`, the second has the header
`{"enc": ...}`. -/
theorem exEc_stale : ∃ j1, (∃ t o, (Jwe.encrypt toyEnv o exRnd [exEcKey]).1 = .ok t ∧ Jwt.unpack (utf8Encode t) = .ok j1) ∧
    ∃ hs h2 t2 j2 ct tag, PyDict.get? h2 "epk" = none ∧
      JweParts t2 (b64e (utf8Encode hs)) (.dict h2) [] (List.replicate 16 7) ct tag ∧ Jwt.unpack t2 = .ok j2 ∧
      ∀ k2, ((ecRun toyEnv ([] ++ [.setup j1 exEcKey])).decSetup toyEnv j2 k2).1 = .error .generic ∧
        (ecRun toyEnv ([] ++ [.setup j1 exEcKey, .setup j2 k2])).decrypt toyEnv j2 = .ok (utf8Encode "mine") := by
  obtain ⟨o, t, j, ho, ht, hun, hall⟩ := exEc_total
  obtain ⟨⟨cek, hcek⟩, hdec⟩ := hall []
  refine ⟨j, ⟨t, o, ht, hun⟩, ?_⟩
  rw [jwe_new_short] at ho
  cases ho
  obtain ⟨X, Y, h1, h2, h3⟩ := exEcKey_ok
  obtain ⟨l, wk, k, heff, -, hf, H⟩ := C89_ecdh (E := toyEnv) (alg := "ECDH-ES+A192KW") rfl .ec192 trivial
    (realValues_short _ _ _ (by decide)) ht
  cases only_key heff hf
  obtain ⟨hdr, ⟨s0, ek, iv, ct, tag, hparts⟩, hshow, -⟩ := H P256 X Y h2 (by intro e he; cases he)
  obtain ⟨w, he, htold⟩ : Shows hdr "enc" (some (.str "A128CBC-HS256")) := hshow "enc" (by decide)
  cases htold
  obtain ⟨hb, hun'⟩ := jweParts_unpack hparts
  rw [hun] at hun'
  cases hun'
  have hlen : cek.length = 32 ∨ cek.length = 48 ∨ cek.length = 64 := by
    have hne : cek ≠ [] := by
      rintro rfl
      simp only [ecRun, List.nil_append, List.foldl_cons, List.foldl_nil, ecAfter] at hdec hcek
      generalize hx : EcObj.decSetup toyEnv {} _ exEcKey = x at hdec hcek
      rw [decSetup_five (iv := iv) (ct := ct) (tag := tag) ⟨_, _, _, rfl⟩] at hx
      split at hx
      · subst hx; cases hcek
      · subst hx
        simp only [Except.ok.injEq] at hcek
        simp only [hcek, EcObj.decrypt, if_true] at hdec
        cases hdec
    have := (C145_exact (E := toyEnv) toyCipher_lawful (pre := []) (post := []) (pre' := []) (post' := []) rfl hcek
      (by simp) (by simp) (iv := iv) (ct := ct) (tag := tag) ⟨_, _, _, rfl⟩ hne rfl he rfl _).mp hdec
    rcases this.1 with ⟨h, -⟩ | ⟨-, -, -, s, a, hmem, -⟩
    · exact absurd h (by decide)
    · simp only [cbcHmacParams, List.mem_cons, Prod.mk.injEq, List.not_mem_nil, or_false] at hmem
      omega
  rcases hlen with hlen | hlen | hlen
  · obtain ⟨t2, j2, c, g, hh⟩ := C145_stale (E := toyEnv) toyCipher_lawful toyHashes_lawful (before := []) hcek .c128 hlen
      (iv := List.replicate 16 7) (by decide) (hs := "{\"enc\":\"A128CBC-HS256\"}")
      (h2 := [("enc", .str "A128CBC-HS256")]) (by decide +kernel) (by decide) (by decide) (by decide +kernel)
      (m := utf8Encode "mine") (by decide +kernel)
    exact ⟨_, _, t2, j2, c, g, by decide, hh⟩
  · obtain ⟨t2, j2, c, g, hh⟩ := C145_stale (E := toyEnv) toyCipher_lawful toyHashes_lawful (before := []) hcek .c192 hlen
      (iv := List.replicate 16 7) (by decide) (hs := "{\"enc\":\"A192CBC-HS384\"}")
      (h2 := [("enc", .str "A192CBC-HS384")]) (by decide +kernel) (by decide) (by decide) (by decide +kernel)
      (m := utf8Encode "mine") (by decide +kernel)
    exact ⟨_, _, t2, j2, c, g, by decide, hh⟩
  · obtain ⟨t2, j2, c, g, hh⟩ := C145_stale (E := toyEnv) toyCipher_lawful toyHashes_lawful (before := []) hcek .c256 hlen
      (iv := List.replicate 16 7) (by decide) (hs := "{\"enc\":\"A256CBC-HS512\"}")
      (h2 := [("enc", .str "A256CBC-HS512")]) (by decide +kernel) (by decide) (by decide) (by decide +kernel)
      (m := utf8Encode "mine") (by decide +kernel)
    exact ⟨_, _, t2, j2, c, g, by decide, hh⟩

end Verif
