import Verif.Props.JweState
/-
C142: one JWE object shared by several threads.

A call of `JWE.encrypt` or `JWE.decrypt` (`jwe.py:754-900`) reads the object in several places, writes it
once, `self["cek"] = ...` (`jwe.py:830, 880, 891`), and returns what it has computed before that.  So a
call has two moves: `compute` (everything up to the write, on a `view` of the object that agrees with the
object in all entries no call ever writes) and `store`.
-/

namespace Verif
open Spec

/-- What a call returns: a token from `encrypt`, a message from `decrypt` (`jwe.py:836, 886, 897`). -/
def JweCall.result (E : Env) (o : Jwe) : JweCall → PyM (String ⊕ Bytes)
  | .encrypt rnd keys cek iv kid => (o.encrypt E rnd keys cek iv kid).1.map .inl
  | .decrypt rnd token keys alg cek => (o.decrypt E rnd token keys alg cek).1.map .inr

/-- How far a call has come, `jwe.py:754-900`. -/
inductive EPc where
  | start
  /-- before `self["cek"] = cek` -/
  | computed (r : String ⊕ Bytes) (cek : PyVal)
  | returned (r : PyM (String ⊕ Bytes))

/-- The next move of a call, `jwe.py:754-900`; the entry it is going to store is the one that `encrypt`
and `decrypt` of the sequential model leave. -/
def JweCall.step (E : Env) (c : JweCall) (o view : Jwe) : EPc → EPc × Jwe
  | .start =>
    match c.result E view with
    | .error e => (.returned (.error e), o)
    | .ok r => (.computed r ((PyDict.get? (c.after E view).dict "cek").getD .none), o)
  | .computed r k => (.returned (.ok r), { o with dict := PyDict.set o.dict "cek" k })
  | .returned r => (.returned r, o)

/-- The shared object and the point each thread has reached. -/
structure ESys (ι : Type) where
  obj : Jwe
  pc : ι → EPc

/-- Thread `i` moves. -/
def ESys.move [DecidableEq ι] (E : Env) (calls : ι → JweCall) (s : ESys ι) (i : ι) (view : Jwe) :
    ESys ι :=
  { obj := ((calls i).step E s.obj view (s.pc i)).2
    pc := fun j => if j = i then ((calls i).step E s.obj view (s.pc i)).1 else s.pc j }

/-- Threads move in any order; a call sees the object, except that the entry `cek` may be anything. -/
inductive ESys.Reach [DecidableEq ι] (E : Env) (calls : ι → JweCall) : ESys ι → ESys ι → Prop
  | refl (s : ESys ι) : Reach E calls s s
  | move {s t : ESys ι} (i : ι) (view : Jwe) (hv : SameBut t.obj view) : Reach E calls s t →
      Reach E calls s (t.move E calls i view)

theorem estep_inv (E : Env) (c : JweCall) (o0 o view : Jwe) (pc : EPc) (ho : SameBut o0 o)
    (hv : SameBut o view)
    (h : (∀ r k, pc = .computed r k → ∃ w, SameBut o0 w ∧ c.result E w = .ok r) ∧
      ∀ r, pc = .returned r → ∃ w, SameBut o0 w ∧ c.result E w = r) :
    SameBut o0 (c.step E o view pc).2 ∧
    (∀ r k, (c.step E o view pc).1 = .computed r k → ∃ w, SameBut o0 w ∧ c.result E w = .ok r) ∧
      ∀ r, (c.step E o view pc).1 = .returned r → ∃ w, SameBut o0 w ∧ c.result E w = r := by
  cases pc with
  | start =>
    simp only [JweCall.step]
    split
    · rename_i e he
      refine ⟨ho, by simp, fun r hr => ?_⟩
      simp only [EPc.returned.injEq] at hr
      exact ⟨view, ho.trans hv, by rw [he, hr]⟩
    · rename_i r hr
      refine ⟨ho, fun r' k hk => ?_, by simp⟩
      simp only [EPc.computed.injEq] at hk
      exact ⟨view, ho.trans hv, by rw [hr, hk.1]⟩
  | computed r k =>
    obtain ⟨w, hw, hr⟩ := h.1 r k rfl
    refine ⟨ho.trans (sameBut_set o k), by simp [JweCall.step], fun r' h' => ?_⟩
    simp only [JweCall.step, EPc.returned.injEq] at h'
    exact ⟨w, hw, by rw [← h', hr]⟩
  | returned r => exact ⟨ho, h⟩

/-- In every execution the object changes in the entry `cek` alone, and what a call returns it returns
on its own on an object that differs from the given one in nothing but that entry. -/
theorem C142_any [DecidableEq ι] (E : Env) (calls : ι → JweCall) (s t : ESys ι)
    (hs : ∀ i, s.pc i = .start) (h : ESys.Reach E calls s t) :
    SameBut s.obj t.obj ∧ ∀ i r, t.pc i = .returned r →
      ∃ w, SameBut s.obj w ∧ (calls i).result E w = r := by
  have key : SameBut s.obj t.obj ∧ ∀ i,
      (∀ r k, t.pc i = .computed r k → ∃ w, SameBut s.obj w ∧ (calls i).result E w = .ok r) ∧
      ∀ r, t.pc i = .returned r → ∃ w, SameBut s.obj w ∧ (calls i).result E w = r := by
    induction h with
    | refl => exact ⟨.refl _, fun i => ⟨by simp [hs i], by simp [hs i]⟩⟩
    | move i view hv _ ih =>
      rename_i t _
      obtain ⟨g1, g2⟩ := estep_inv E (calls i) s.obj t.obj view (t.pc i) ih.1 hv (ih.2 i)
      refine ⟨g1, fun j => ?_⟩
      simp only [ESys.move]
      split
      · rename_i e; subst e; exact g2
      · exact ih.2 j
  exact ⟨key.1, fun i r hr => (key.2 i).2 r hr⟩

/-- **C142.** A decryption returns in every execution what it returns alone. -/
theorem C142_decrypt [DecidableEq ι] (E : Env) (calls : ι → JweCall) (s t : ESys ι)
    (hs : ∀ i, s.pc i = .start) (h : ESys.Reach E calls s t) (i : ι)
    (rnd : JweRnd) (token : Bytes) (keys : List Key) (alg : PyVal) (cek : Bytes)
    (hc : calls i = .decrypt rnd token keys alg cek) (r : PyM (String ⊕ Bytes))
    (hr : t.pc i = .returned r) :
    r = (s.obj.decrypt E rnd token keys alg cek).1.map .inr := by
  obtain ⟨w, hw, hr⟩ := (C142_any E calls s t hs h).2 i r hr
  rw [hc] at hr
  rw [← hr, JweCall.result, C92_decrypt hw]

/-- **C142.** So does an encryption with RSA, AES key wrap or direct agreement, as to whether and which
token it makes from given random choices. -/
theorem C142_encrypt [DecidableEq ι] (E : Env) (calls : ι → JweCall) (s t : ESys ι)
    (hs : ∀ i, s.pc i = .start) (h : ESys.Reach E calls s t) (i : ι)
    (rnd : JweRnd) (keys : List Key) (cek iv : Bytes) (kid : Option PyVal)
    (hc : calls i = .encrypt rnd keys cek iv kid) {alg : String} {m : KeyMgmt}
    (halg : PyDict.get? s.obj.dict "alg" = some (.str alg))
    (hm : MgmtName alg m) (hma : ∀ n, m ≠ .agreeWrap n) (r : PyM (String ⊕ Bytes))
    (hr : t.pc i = .returned r) (tok : String) :
    r = .ok (.inl tok) ↔ (s.obj.encrypt E rnd keys cek iv kid).1 = .ok tok := by
  obtain ⟨w, hw, hr⟩ := (C142_any E calls s t hs h).2 i r hr
  rw [hc] at hr
  rw [← hr, JweCall.result, ← C92_encrypt hw rnd keys cek iv kid halg hm hma tok]
  rcases (w.encrypt E rnd keys cek iv kid).1 with e | x <;> simp [Except.map]

/-- A thread that is not disturbed: the two moves are the call. -/
theorem C142_alone [DecidableEq ι] (E : Env) (calls : ι → JweCall) (s : ESys ι) (i : ι)
    (hi : s.pc i = .start) :
    ∃ t, ESys.Reach E calls s t ∧ t.pc i = .returned ((calls i).result E s.obj) ∧
      t.obj = (calls i).after E s.obj ∧ ∀ j, j ≠ i → t.pc j = s.pc j := by
  have hx : ((∃ e, (calls i).result E s.obj = .error e) ∧ (calls i).after E s.obj = s.obj) ∨
      ∃ r c, (calls i).result E s.obj = .ok r ∧
        (calls i).after E s.obj = { s.obj with dict := PyDict.set s.obj.dict "cek" c } := by
    cases calls i with
    | encrypt rnd keys cek iv kid =>
      unfold JweCall.result JweCall.after Jwe.encrypt
      simp only
      split
      · exact .inr ⟨_, _, rfl, rfl⟩
      · exact .inl ⟨⟨_, rfl⟩, rfl⟩
    | decrypt rnd token keys alg cek =>
      unfold JweCall.result JweCall.after Jwe.decrypt
      simp only
      split
      · exact .inr ⟨_, _, rfl, rfl⟩
      · exact .inl ⟨⟨_, rfl⟩, rfl⟩
  rcases hx with ⟨⟨e, he⟩, ha⟩ | ⟨r, c, hr, ha⟩
  · refine ⟨_, .move i s.obj (.refl _) (.refl s), ?_, ?_, fun j hj => ?_⟩
    · simp [ESys.move, hi, JweCall.step, he]
    · simp [ESys.move, hi, JweCall.step, he, ha]
    · simp [ESys.move, hj]
  · refine ⟨_, .move i s.obj ?_ (.move i s.obj (.refl _) (.refl s)), ?_, ?_, fun j hj => ?_⟩
    · simp only [ESys.move, hi, JweCall.step, hr]; exact .refl _
    · simp [ESys.move, hi, JweCall.step, hr]
    · simp [ESys.move, hi, JweCall.step, hr, ha, PyDict.get?_set]
    · simp [ESys.move, hj]

theorem ereach_trans [DecidableEq ι] {E : Env} {calls : ι → JweCall} {s t u : ESys ι}
    (h : ESys.Reach E calls s t) (g : ESys.Reach E calls t u) : ESys.Reach E calls s u := by
  induction g with
  | refl => exact h
  | move i view hv _ ih => exact .move i view hv ih

/-- The exception, agreement with key wrap: what such an encryption returns does depend on the order.
After a call `a` of another thread that leaves a content key `k` in the object (C92: an RSA token decrypted
or made), the token of `b` is sealed with that same key. -/
theorem C142_agreement [DecidableEq ι] {E : Env} (hC : E.C.Lawful) (hH : E.H.Lawful) (calls : ι → JweCall)
    (s : ESys ι) (hs : ∀ i, s.pc i = .start) (a b : ι) (hab : a ≠ b)
    {rnd : JweRnd} (hr : RndLengths rnd) {keys : List Key} {cek iv : Bytes} {kid : Option PyVal}
    (hb : calls b = .encrypt rnd keys cek iv kid) {alg : String} {n : Nat}
    (halg : PyDict.get? s.obj.dict "alg" = some (.str alg)) (hm : MgmtName alg (.agreeWrap n))
    {k : Bytes} (hk : PyDict.get? ((calls a).after E s.obj).dict "cek" = some (.bytes k))
    (hkl : k ≠ [] ∧ k.length < 2 ^ 61) (hv : RealValues ((calls a).after E s.obj) keys kid)
    {t : String} (ht : (((calls a).after E s.obj).encrypt E rnd keys cek iv kid).1 = .ok t) :
    (∃ u, ESys.Reach E calls s u ∧ u.pc b = .returned (.ok (.inl t))) ∧
    ∃ l wk key, EffKeys s.obj.toJwx keys l ∧ FirstPicked (.agreeWrap n) alg wk l key ∧
      ∀ (C : NistCurve) X Y, HasPoint C X Y key → (∀ e, s.obj.epk = some e → EphemeralKey C e) →
        ∃ s0 hdr ek v ct tag enc pt,
          JweParts (utf8Encode t) s0 hdr ek v ct tag ∧ PyDict.get? s.obj.dict "enc" = some (.str enc) ∧
          MsgBytes s.obj.msg pt ∧ Sealed E enc k v s0 pt ct tag := by
  have hsame : SameBut s.obj ((calls a).after E s.obj) := C92_only_cek E s.obj [calls a]
  constructor
  · obtain ⟨u1, g1, -, o1, p1⟩ := C142_alone E calls s a (hs a)
    obtain ⟨u2, g2, q2, -, -⟩ := C142_alone E calls u1 b (by rw [p1 b (Ne.symm hab), hs b])
    refine ⟨u2, ereach_trans g1 g2, ?_⟩
    rw [q2, o1, hb, JweCall.result, ht]
    rfl
  · obtain ⟨l, wk, key, h1, -, h3, h4⟩ := C92_reuse hC hH hr (by rw [hsame.entries "alg" (by decide), halg])
      hm hv hk hkl ht
    refine ⟨l, wk, key, ?_, h3, fun C X Y hp he => ?_⟩
    · unfold EffKeys at h1 ⊢
      rwa [hsame.jwk] at h1
    · obtain ⟨s0, hdr, ek, v, ct, tag, enc, pt, q1, q2, q3, q4⟩ := h4 C X Y hp (by rwa [hsame.epk])
      exact ⟨s0, hdr, ek, v, ct, tag, enc, pt, q1, by rw [← q2, hsame.entries "enc" (by decide)],
        by rwa [hsame.msg] at q3, q4⟩

/-! ### Examples -/

/-- `C142_encrypt`, `C142_decrypt`: one thread makes an RSA token, another decrypts it, with the same
object; whatever the order, they return the token and the message, and there is an execution in which both
have returned. -/
example : ∃ tok : String, ∀ calls : Bool → JweCall,
    calls false = .encrypt exRnd [exRsaPub] [] [] none →
    calls true = .decrypt exRnd (utf8Encode tok) [exRsaPriv] .none [] →
    (∀ t r, ESys.Reach toyEnv calls ⟨exRsaer, fun _ => .start⟩ t → t.pc false = .returned r →
      r = .ok (.inl tok)) ∧
    (∀ t r, ESys.Reach toyEnv calls ⟨exRsaer, fun _ => .start⟩ t → t.pc true = .returned r →
      r = (exRsaer.decrypt toyEnv exRnd (utf8Encode tok) [exRsaPriv]).1.map .inr) ∧
    ∃ t r, ESys.Reach toyEnv calls ⟨exRsaer, fun _ => .start⟩ t ∧ t.pc false = .returned (.ok (.inl tok)) ∧
      t.pc true = .returned r := by
  obtain ⟨tok, ht, -⟩ := exRsaer_token
  refine ⟨tok, fun calls hf hd => ⟨fun t r h hr => ?_, fun t r h hr => ?_, ?_⟩⟩
  · exact (C142_encrypt toyEnv calls _ t (fun _ => rfl) h false _ _ _ _ _ hf rfl .oaep
      (by intro n h; cases h) r hr tok).mpr ht
  · exact C142_decrypt toyEnv calls _ t (fun _ => rfl) h true _ _ _ _ _ hd r hr
  · obtain ⟨u1, g1, q1, -, p1⟩ := C142_alone toyEnv calls ⟨exRsaer, fun _ => .start⟩ false rfl
    obtain ⟨u2, g2, q2, -, p2⟩ := C142_alone toyEnv calls u1 true (by rw [p1 true (by simp)])
    refine ⟨u2, _, ereach_trans g1 g2, ?_, q2⟩
    rw [p2 false (by simp), q1, hf, JweCall.result, ht]
    rfl

/-- An RSA token whose content key (32 bytes 7) also fits `exAgreer`. -/
def exRsaTok : Bytes :=
  match (Jwe.encrypt toyEnv { exRsaer with dict := rsaKw "RSA-OAEP" "A128CBC-HS256" false } exRnd [exRsaPub]).1 with
  | .ok t => utf8Encode t
  | .error _ => []

theorem exRsaTok_cek : PyDict.get? (exAgreer.decrypt toyEnv exRnd exRsaTok [exRsaPriv]).2.dict "cek" =
    some (.bytes (List.replicate 32 7)) := by decide +kernel

theorem exRsaTok_then : ((exAgreer.decrypt toyEnv exRnd exRsaTok [exRsaPriv]).2.encrypt toyEnv exRnd
    [exEcKey]).1.isOk = true := by decide +kernel

/-- `C142_agreement`: a thread decrypts an RSA token; the token another thread makes for somebody else with
ECDH-ES+A192KW is sealed with the content key the sender of the RSA token has chosen. -/
example (calls : Bool → JweCall) (ha : calls false = .decrypt exRnd exRsaTok [exRsaPriv] .none [])
    (hb : calls true = .encrypt exRnd [exEcKey] [] [] none) (s : ESys Bool) (hs : ∀ i, s.pc i = .start)
    (ho : s.obj = exAgreer) :
    ∃ u t s0 hdr ek v ct tag pt, ESys.Reach toyEnv calls s u ∧
      u.pc true = .returned (.ok (.inl t)) ∧ JweParts (utf8Encode t) s0 hdr ek v ct tag ∧
      Sealed toyEnv "A128CBC-HS256" (List.replicate 32 7) v s0 pt ct tag := by
  obtain ⟨X, Y, -, hpt, -⟩ := exEcKey_ok
  have h := exRsaTok_then
  have hcek := exRsaTok_cek
  have hd : (calls false).after toyEnv s.obj = (exAgreer.decrypt toyEnv exRnd exRsaTok [exRsaPriv]).2 := by
    rw [ha, ho, JweCall.after]
  have hsame : SameBut exAgreer (exAgreer.decrypt toyEnv exRnd exRsaTok [exRsaPriv]).2 := by
    rw [← hd, ← ho]; exact C92_only_cek toyEnv s.obj [calls false]
  generalize (exAgreer.decrypt toyEnv exRnd exRsaTok [exRsaPriv]).2 = o' at h hcek hd hsame
  rcases ht : (o'.encrypt toyEnv exRnd [exEcKey]).1 with e | t
  · rw [ht] at h; cases h
  have hv : RealValues o' [exEcKey] none := by
    refine ⟨fun n v hv => ?_, fun v hv => (by rw [hsame.jwk] at hv; cases hv), exAgreer_real.kids,
      fun v hv => (by rw [hsame.jwk] at hv; cases hv), fun v hv => (by cases hv)⟩
    by_cases hn : n = "cek"
    · subst hn
      rw [hcek] at hv
      cases hv; trivial
    · rw [hsame.entries n hn] at hv
      exact exAgreer_real.dict n v hv
  obtain ⟨⟨u, hu, hub⟩, l, wk, k, h1, h2, h3⟩ := C142_agreement toyCipher_lawful toyHashes_lawful calls
    s hs false true (by simp) exRnd_lengths hb (by rw [ho]; rfl) .ec192
    (k := List.replicate 32 7) (by rw [hd]; exact hcek) ⟨by simp, by simp⟩ (by rw [hd]; exact hv)
    (by rw [hd]; exact ht)
  cases only_key h1 h2
  rw [ho] at h3
  obtain ⟨s0, hdr, ek, v, ct, tag, enc, pt, hp, he, hm, hs⟩ := h3 P256 X Y hpt (by intro e h; cases h)
  cases he
  exact ⟨u, t, s0, hdr, ek, v, ct, tag, pt, hu, hub, hp, hs⟩

end Verif
