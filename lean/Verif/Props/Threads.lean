import Verif.Props.JwsVerify
import Verif.Model.Threads
/-
C141: one JWS object shared by several threads.
-/

namespace Verif
open Spec

/-- The message `m` belongs to the token of call `c`, and that token passed the checks the caller of `c`
asked for, with key `ko` (`none`: an unsigned token, which that caller allowed).  `o` is the object
before the calls. -/
def CheckedBy (E : Env) (o : Jwx) (c : TCall) (m : PyVal) (ko : Option Key) : Prop :=
  ∃ s0 s1 hdr p sig, Token c.jws s0 s1 (.dict hdr) p sig ∧ Message E.jsonBytes hdr p m ∧
    ((ko = none ∧ c.allowNone = true ∧ ∃ v, PyDict.get? hdr "alg" = some v ∧ NoneName v) ∨
     ∃ k name a l, ko = some k ∧ PyDict.get? hdr "alg" = some (.str name) ∧ SupportedAlg name a ∧
       (c.sigalg.truthy = true → c.sigalg = .str name) ∧ EffKeys o c.keys l ∧ k ∈ l ∧
       Accepts E k (s0 ++ 46 :: s1) sig a)

/-- Every call stands at its beginning. -/
def TSys.Fresh (s : TSys ι) : Prop := ∀ i, s.pc i = .start

/-! ### The moves of one thread -/

/-- What a thread knows about its own call. -/
def TInv (E : Env) (o : Jwx) (c : TCall) : TPc → Prop
  | .start => True
  | .unpacked jwt => Jwt.unpack c.jws = .ok jwt ∧ jwt.part.length = 3
  | .checked jwt alg | .algSet jwt alg =>
    Jwt.unpack c.jws = .ok jwt ∧ jwt.part.length = 3 ∧ jwt.headerAlg = .ok (alg, false) ∧
      (c.sigalg.truthy = true → c.sigalg.pyEq alg = true)
  | .picked jwt alg ks =>
    Jwt.unpack c.jws = .ok jwt ∧ jwt.part.length = 3 ∧ jwt.headerAlg = .ok (alg, false) ∧
      (c.sigalg.truthy = true → c.sigalg.pyEq alg = true) ∧
      ∀ k ∈ ks, ∃ l, EffKeys o c.keys l ∧ k ∈ l
  | .msgSet k => ∃ m, CheckedBy E o c m (some k)
  | .last ko => ∃ m, CheckedBy E o c m ko
  | .returned (.error _) => True
  | .returned (.ok (_, ko)) => ∃ m, CheckedBy E o c m ko

theorem pickKeys_mem {o : Jwx} {src : List JKey} {use : String} {alg : PyVal} {ks : List Key}
    {a2k : PyVal → PyM (Option String)}
    (h : o.pickKeys a2k src use alg = .ok ks) (k : Key) (hk : k ∈ ks) :
    ∃ l : List Key, src = l.map JKey.key ∧ k ∈ l := by
  unfold Jwx.pickKeys at h
  simp only [Bind.bind] at h
  obtain ⟨alg', -, h1⟩ := bind_ok_iff.mp h
  split at h1
  · cases h1; simp at hk
  obtain ⟨kt, -, h2⟩ := bind_ok_iff.mp h1
  rcases kt with _ | kt
  · cases h2; simp at hk
  obtain ⟨ks', hks', h3⟩ := bind_ok_iff.mp h2
  obtain ⟨kid, -, h4⟩ := bind_ok_iff.mp h3
  obtain ⟨l, rfl⟩ := keysOfType_ok hks'
  rw [keysOfType_keys] at hks'
  cases hks'
  cases h4
  exact ⟨l, rfl, by
    have := (List.mem_filter.mp hk).1
    exact (List.mem_filter.mp this).1⟩

/-- The call has written `self.msg`. -/
def TPc.Wrote : TPc → Prop
  | .msgSet _ | .last _ | .returned (.ok _) => True
  | _ => False

/-- One move of a call: it keeps what the thread knows, leaves the keys of the object, and whatever it
writes into `self.msg` is a message the call has checked. -/
theorem tstep_inv (E : Env) (o0 o view : Jwx) (c : TCall) (pc : TPc) (ho : o.jwk = o0.jwk)
    (h : TInv E o0 c pc) :
    TInv E o0 c (c.step E o view pc).1 ∧ (c.step E o view pc).2.jwk = o0.jwk ∧
      ((c.step E o view pc).2.msg = o.msg ∧ ((c.step E o view pc).1.Wrote → pc.Wrote) ∨
        ∃ ko, CheckedBy E o0 c (c.step E o view pc).2.msg ko) := by
  cases pc with
  | start =>
    simp only [TCall.step]
    split
    · exact ⟨trivial, ho, .inl ⟨rfl, id⟩⟩
    · split
      · exact ⟨trivial, ho, .inl ⟨rfl, id⟩⟩
      · rename_i hj hl
        exact ⟨⟨hj, by simpa using hl⟩, ho, .inl ⟨rfl, id⟩⟩
  | unpacked jwt =>
    obtain ⟨hj, hl⟩ := h
    simp only [TCall.step]
    split
    · exact ⟨trivial, ho, .inl ⟨rfl, id⟩⟩
    · rename_i alg hha
      split
      · rename_i han
        split
        · rename_i m hm
          obtain ⟨hdr, hd, hg, hn⟩ := headerAlg_none hha
          obtain ⟨s0, s1, s2, hb, p, sig, hb64, hpart, ht⟩ := token_of_unpack hj hl
          rw [hd] at ht
          have hc : CheckedBy E o0 c m none :=
            ⟨s0, s1, hdr, p, sig, ht, (message_iff _ _ _ _ _ hd (by rw [hpart]; rfl)).mp hm,
              .inl ⟨rfl, han, _, hg, hn⟩⟩
          exact ⟨⟨m, hc⟩, ho, .inr ⟨none, hc⟩⟩
        · exact ⟨trivial, ho, .inl ⟨rfl, id⟩⟩
      · exact ⟨trivial, ho, .inl ⟨rfl, id⟩⟩
    · rename_i alg hha
      split
      · exact ⟨trivial, ho, .inl ⟨rfl, id⟩⟩
      · split
        · refine ⟨?_, ho, .inl ⟨rfl, ?_⟩⟩
          · split <;> trivial
          · split <;> exact id
        · rename_i hs
          refine ⟨⟨hj, hl, hha, fun ht => ?_⟩, ho, .inl ⟨rfl, id⟩⟩
          simpa [ht] using hs
  | checked jwt alg => exact ⟨h, ho, .inl ⟨rfl, id⟩⟩
  | algSet jwt alg =>
    obtain ⟨hj, hl, hha, hs⟩ := h
    simp only [TCall.step]
    split
    · exact ⟨trivial, ho, .inl ⟨rfl, id⟩⟩
    · rename_i ks hks
      split
      · exact ⟨trivial, ho, .inl ⟨rfl, id⟩⟩
      · refine ⟨⟨hj, hl, hha, hs, fun k hk => ?_⟩, ho, .inl ⟨rfl, id⟩⟩
        obtain ⟨src, hsrc, hpk⟩ := bind_ok_iff.mp hks
        obtain ⟨l, hsl, hkl⟩ := pickKeys_mem hpk k hk
        rcases keySource_cases hsrc hsl with he | he
        · refine ⟨l, ?_, hkl⟩
          unfold EffKeys at he ⊢
          rwa [ho] at he
        · rw [he] at hkl; simp at hkl
  | picked jwt alg ks =>
    obtain ⟨hj, hl, hha, hs, hk⟩ := h
    simp only [TCall.step]
    split
    · exact ⟨trivial, ho, .inl ⟨rfl, id⟩⟩
    · exact ⟨trivial, ho, .inl ⟨rfl, id⟩⟩
    · rename_i a hsg
      split
      · rename_i k m hr
        simp only [Bind.bind] at hr
        obtain ⟨inp, hinp, h3⟩ := bind_ok_iff.mp hr
        obtain ⟨sg, hsg2, h4⟩ := bind_ok_iff.mp h3
        obtain ⟨k', hk', h5⟩ := bind_ok_iff.mp h4
        obtain ⟨m'', hm, h6⟩ := bind_ok_iff.mp h5
        simp only [Except.ok.injEq, Prod.mk.injEq] at h6
        obtain ⟨rfl, rfl⟩ := h6
        obtain ⟨name, rfl, hsup⟩ := (signerOf_iff _ _).mp hsg
        obtain ⟨hdr, hd, hg⟩ := headerAlg_some hha
        have hg : PyDict.get? hdr "alg" = some (.str name) := by
          rcases hg with (⟨h, -⟩ | ⟨b, h⟩) | ⟨-, h⟩
          · exact h
          · simp at h
          · simp at h
        obtain ⟨s0, s1, s2, hb, p, sig, hb64, hpart, ht⟩ := token_of_unpack hj hl
        rw [hd] at ht
        simp only [hpart, List.getElem?_cons_succ, List.getElem?_cons_zero, Except.ok.injEq] at hsg2
        simp only [Jwt.signInput, hb64, Except.ok.injEq] at hinp
        subst hsg2 hinp
        obtain ⟨pre, post, hks, hacc, -⟩ := verifyLoop_ok hk'
        obtain ⟨l, hel, hkl⟩ := hk k' (by simp [hks])
        have hc : CheckedBy E o0 c m'' (some k') :=
          ⟨s0, s1, hdr, p, sig, ht, (message_iff _ _ _ _ _ hd (by rw [hpart]; rfl)).mp hm,
            .inr ⟨k', name, a, l, rfl, hg, hsup,
              fun t => (pyEq_str_iff _ _).mp (hs t), hel, hkl, hacc⟩⟩
        exact ⟨⟨_, hc⟩, ho, .inr ⟨_, hc⟩⟩
      · exact ⟨trivial, ho, .inl ⟨rfl, id⟩⟩
  | msgSet k => exact ⟨h, ho, .inl ⟨rfl, id⟩⟩
  | last k => exact ⟨h, ho, .inl ⟨rfl, id⟩⟩
  | returned r => exact ⟨h, ho, .inl ⟨rfl, id⟩⟩

/-! ### C141 -/

theorem tstep_returned (E : Env) (o view : Jwx) (c : TCall) (pc : TPc) (m : PyVal) (ko : Option Key)
    (h : (c.step E o view pc).1 = .returned (.ok (m, ko))) :
    pc = .returned (.ok (m, ko)) ∨ (pc = .last ko ∧ m = o.msg) := by
  revert h
  fun_cases TCall.step E c o view pc <;> intro h <;> simp_all
  split at h <;> simp at h

/-- In every execution, of any number of threads: a call that returns has checked its own token with the
key it returns, and the message it returns is the message of a token that *some* call on the object has
checked. -/
theorem C141_safe [DecidableEq ι] (E : Env) (calls : ι → TCall) (s t : TSys ι) (hs : s.Fresh)
    (h : TSys.Reach E calls s t) (i : ι) (m : PyVal) (ko : Option Key)
    (hi : t.pc i = .returned (.ok (m, ko))) :
    (∃ m', CheckedBy E s.obj (calls i) m' ko) ∧
      ∃ j ko', CheckedBy E s.obj (calls j) m ko' := by
  have key : t.obj.jwk = s.obj.jwk ∧ (∀ i, TInv E s.obj (calls i) (t.pc i)) ∧
      (∀ i, (t.pc i).Wrote → ∃ j ko', CheckedBy E s.obj (calls j) t.obj.msg ko') ∧
      (∀ i m ko, t.pc i = .returned (.ok (m, ko)) → ∃ j ko', CheckedBy E s.obj (calls j) m ko') := by
    clear hi
    induction h with
    | refl =>
      refine ⟨rfl, fun i => by rw [hs i]; trivial, ?_, ?_⟩
      · intro i h; rw [hs i] at h; exact h.elim
      · intro i m ko h; simp [hs i] at h
    | move i view _ ih =>
      rename_i t _
      obtain ⟨h1, h2, h3, h4⟩ := ih
      obtain ⟨g1, g2, g3⟩ := tstep_inv E s.obj t.obj view (calls i) (t.pc i) h1 (h2 i)
      refine ⟨g2, fun j => ?_, fun j hj => ?_, fun j m ko hj => ?_⟩
      · simp only [TSys.move]
        split
        · rename_i e; rw [e]; exact g1
        · exact h2 j
      · rcases g3 with ⟨g3, g4⟩ | ⟨ko', g3⟩
        · have : ∃ j, (t.pc j).Wrote := by
            simp only [TSys.move] at hj
            split at hj
            · exact ⟨i, g4 hj⟩
            · exact ⟨j, hj⟩
          obtain ⟨j', hj'⟩ := this
          simp only [TSys.move, g3]
          exact h3 j' hj'
        · exact ⟨i, ko', g3⟩
      · simp only [TSys.move] at hj
        split at hj
        · rcases tstep_returned _ _ _ _ _ _ _ hj with hj | ⟨hl, rfl⟩
          · exact h4 i m ko hj
          · exact h3 i (by rw [hl]; trivial)
        · exact h4 j m ko hj
  have hown := key.2.1 i
  rw [hi] at hown
  exact ⟨hown, key.2.2.2 i m ko hi⟩

/-! ### Calls one after the other -/

/-- `n` moves of thread `i`. -/
def TSys.go [DecidableEq ι] (E : Env) (calls : ι → TCall) (i : ι) : Nat → TSys ι → TSys ι
  | 0, s => s
  | n + 1, s => TSys.go E calls i n (s.move E calls i s.obj)

/-- The moves of one call with the object, nobody else moving. -/
def TCall.alone (E : Env) (c : TCall) : Nat → TPc × Jwx → TPc × Jwx
  | 0, s => s
  | n + 1, s => c.alone E n (c.step E s.2 s.2 s.1)

theorem go_alone [DecidableEq ι] (E : Env) (calls : ι → TCall) (i : ι) : ∀ (n : Nat) (s : TSys ι),
    ((s.go E calls i n).pc i, (s.go E calls i n).obj) = (calls i).alone E n (s.pc i, s.obj) ∧
      ∀ j, j ≠ i → (s.go E calls i n).pc j = s.pc j
  | 0, s => ⟨rfl, fun _ _ => rfl⟩
  | n + 1, s => by
    obtain ⟨h1, h2⟩ := go_alone E calls i n (s.move E calls i s.obj)
    refine ⟨?_, fun j hj => ?_⟩
    · rw [TSys.go, h1, TCall.alone]
      simp [TSys.move]
    · rw [TSys.go, h2 j hj]
      simp [TSys.move, hj]

theorem sched_trans [DecidableEq ι] {E : Env} {calls : ι → TCall} {s t u : TSys ι}
    (h : TSys.Sched E calls s t) (g : TSys.Sched E calls t u) : TSys.Sched E calls s u := by
  induction g with
  | refl => exact h
  | move i _ ih => exact .move i ih

theorem sched_go [DecidableEq ι] (E : Env) (calls : ι → TCall) (i : ι) : ∀ (n : Nat) (s : TSys ι),
    TSys.Sched E calls s (s.go E calls i n)
  | 0, s => .refl s
  | n + 1, s => sched_trans (.move i (.refl s)) (sched_go E calls i n _)

theorem alone_add (E : Env) (c : TCall) (n : Nat) : ∀ (m : Nat) (s : TPc × Jwx),
    c.alone E (m + n) s = c.alone E n (c.alone E m s)
  | 0, s => by simp [TCall.alone]
  | m + 1, s => by
    rw [Nat.add_right_comm, TCall.alone, alone_add E c n m, TCall.alone]

theorem alone_returned (E : Env) (c : TCall) (r : PyM (PyVal × Option Key)) (o : Jwx) :
    ∀ n, c.alone E n (.returned r, o) = (.returned r, o)
  | 0 => rfl
  | n + 1 => by rw [TCall.alone, TCall.step, alone_returned E c r o n]

/-- Alone, seven moves are the call. -/
theorem alone_verify (E : Env) (c : TCall) (o : Jwx) :
    c.alone E 7 (.start, o) =
      (.returned (o.verifyVerbose E c.jws c.keys c.allowNone c.sigalg).1,
        (o.verifyVerbose E c.jws c.keys c.allowNone c.sigalg).2) := by
  unfold Jwx.verifyVerbose
  rw [TCall.alone, TCall.step]
  rcases hu : Jwt.unpack c.jws with e | jwt
  · exact alone_returned _ _ _ _ _
  simp only
  by_cases hl : jwt.part.length = 3
  swap
  · simp only [ne_eq, hl, not_false_eq_true, if_true]
    exact alone_returned _ _ _ _ _
  simp only [ne_eq, hl, not_true_eq_false, if_false]
  rw [TCall.alone]
  simp only [TCall.step]
  rcases hh : jwt.headerAlg with e | ⟨alg, _ | _⟩
  · exact alone_returned _ _ _ _ _
  · simp only
    split
    · exact alone_returned _ _ _ _ _
    split
    · exact alone_returned _ _ _ _ _
    rw [TCall.alone]
    simp only [TCall.step]
    rw [TCall.alone]
    simp only [TCall.step, Bind.bind]
    generalize Jwx.keySource E _ c.keys = src
    rcases src with e | src
    · exact alone_returned _ _ _ _ _
    simp only [Except.bind]
    generalize Jwx.pickKeys alg2keytype _ src "" (.str "") = ks
    rcases ks with e | ks
    · exact alone_returned _ _ _ _ _
    simp only
    split
    · exact alone_returned _ _ _ _ _
    rw [TCall.alone]
    simp only [TCall.step, Bind.bind]
    generalize signerOf alg = sg
    rcases sg with _ | _ | a
    · exact alone_returned _ _ _ _ _
    · exact alone_returned _ _ _ _ _
    simp only [Except.bind]
    rcases jwt.signInput with e | inp
    · exact alone_returned _ _ _ _ _
    rcases jwt.part[2]? with _ | sig
    · exact alone_returned _ _ _ _ _
    simp only
    rcases verifyLoop E a inp sig ks with e | k
    · exact alone_returned _ _ _ _ _
    rcases jwt.payload E.jsonBytes with e | m
    · exact alone_returned _ _ _ _ _
    rfl
  · simp only
    split
    · rcases jwt.payload E.jsonBytes with e | m
      · exact alone_returned _ _ _ _ _
      · rfl
    · exact alone_returned _ _ _ _ _

theorem alone_before (E : Env) (c : TCall) (m : PyVal) (ko : Option Key) (o' : Jwx) :
    ∀ (n : Nat) (pc : TPc) (o : Jwx), (∀ r, pc ≠ .returned (.ok r)) →
      c.alone E n (pc, o) = (.returned (.ok (m, ko)), o') →
      ∃ n', c.alone E n' (pc, o) = (.last ko, o') ∧ o'.msg = m
  | 0, pc, o, hp, h => by
    simp only [TCall.alone, Prod.mk.injEq] at h
    exact absurd h.1 (hp _)
  | n + 1, pc, o, hp, h => by
    rw [TCall.alone] at h
    by_cases hq : ∃ r, (c.step E o o pc).1 = .returned (.ok r)
    · obtain ⟨⟨m1, k1⟩, hr⟩ := hq
      have e : c.step E o o pc = (.returned (.ok (m1, k1)), (c.step E o o pc).2) := by rw [← hr]
      simp only at h
      rw [e, alone_returned] at h
      simp only [Prod.mk.injEq, TPc.returned.injEq, Except.ok.injEq] at h
      obtain ⟨⟨rfl, rfl⟩, h2⟩ := h
      rcases tstep_returned _ _ _ _ _ _ _ hr with h3 | ⟨rfl, rfl⟩
      · exact absurd h3 (hp _)
      · exact ⟨0, by rw [← h2]; rfl, by rw [← h2]; rfl⟩
    · obtain ⟨n', h1, h2⟩ := alone_before E c m ko o' n _ _ (fun r hr => hq ⟨r, hr⟩) h
      exact ⟨n' + 1, by rw [TCall.alone]; exact h1, h2⟩

/-- A thread that is not disturbed returns what the call returns on that object, and leaves the object
as the call leaves it. -/
theorem C141_alone [DecidableEq ι] (E : Env) (calls : ι → TCall) (s : TSys ι) (i : ι)
    (hi : s.pc i = .start) :
    ∃ t, TSys.Sched E calls s t ∧
      t.pc i = .returned (s.obj.verifyVerbose E (calls i).jws (calls i).keys (calls i).allowNone
        (calls i).sigalg).1 ∧
      t.obj = (s.obj.verifyVerbose E (calls i).jws (calls i).keys (calls i).allowNone
        (calls i).sigalg).2 ∧
      ∀ j, j ≠ i → t.pc j = s.pc j := by
  obtain ⟨h1, h2⟩ := go_alone E calls i 7 s
  rw [hi, alone_verify, Prod.mk.injEq] at h1
  exact ⟨_, sched_go E calls i 7 s, h1.1, h1.2, h2⟩

/-- Two calls that both succeed one after the other: in another order of the same moves the first one
returns the *message of the second token*, together with its own key. -/
theorem C141_mixed [DecidableEq ι] (E : Env) (calls : ι → TCall) (s : TSys ι) (a b : ι) (hab : a ≠ b)
    (ha : s.pc a = .start) (hb : s.pc b = .start) (ma mb : PyVal) (ka kb : Option Key) (o : Jwx)
    (h1 : s.obj.verifyVerbose E (calls a).jws (calls a).keys (calls a).allowNone (calls a).sigalg =
      (.ok (ma, ka), o))
    (h2 : (o.verifyVerbose E (calls b).jws (calls b).keys (calls b).allowNone (calls b).sigalg).1 =
      .ok (mb, kb)) :
    ∃ t, TSys.Sched E calls s t ∧ t.pc a = .returned (.ok (mb, ka)) ∧
      t.pc b = .returned (.ok (mb, kb)) := by
  have hv := alone_verify E (calls a) s.obj
  rw [h1] at hv
  obtain ⟨n, hn, -⟩ := alone_before E (calls a) ma ka o 7 _ _ (by simp) hv
  obtain ⟨s1, hs1, p1, o1, q1⟩ : ∃ s1, TSys.Sched E calls s s1 ∧ s1.pc a = .last ka ∧ s1.obj = o ∧
      s1.pc b = .start := by
    obtain ⟨g1, g2⟩ := go_alone E calls a n s
    rw [ha, hn, Prod.mk.injEq] at g1
    exact ⟨_, sched_go E calls a n s, g1.1, g1.2, by rw [g2 b (Ne.symm hab), hb]⟩
  obtain ⟨s2, hs2, p2, o2, q2⟩ := C141_alone E calls s1 b q1
  rw [o1, h2] at p2
  rw [o1] at o2
  have hm : s2.obj.msg = mb := by
    have hv := alone_verify E (calls b) o
    rw [h2] at hv
    obtain ⟨-, -, hm⟩ := alone_before E (calls b) mb kb _ 7 _ _ (by simp) hv
    rw [o2, hm]
  have p2' : s2.pc a = .last ka := by rw [q2 a hab, p1]
  refine ⟨s2.move E calls a s2.obj, .move a (sched_trans hs1 hs2), ?_, ?_⟩
  · simp [TSys.move, p2', TCall.step, hm]
  · simp [TSys.move, Ne.symm hab, p2]

/-- In particular: a caller that does not allow unsigned tokens and gives a good token can be handed
the payload of *any* unsigned token that another thread allows, as if its key had signed it. -/
theorem C141_unsigned [DecidableEq ι] (E : Env) (calls : ι → TCall) (s : TSys ι) (a b : ι)
    (hs : s.Fresh) (ma : PyVal) (ka : Key)
    (han : (calls a).allowNone = false) (hbn : (calls b).allowNone = true)
    (h1 : (s.obj.verifyVerbose E (calls a).jws (calls a).keys false (calls a).sigalg).1 =
      .ok (ma, some ka))
    (s0 s1 : Bytes) (hdr : PyDict) (p sig : Bytes) (v mb : PyVal)
    (ht : Token (calls b).jws s0 s1 (.dict hdr) p sig) (hv : PyDict.get? hdr "alg" = some v)
    (hn : NoneName v) (hm : Message E.jsonBytes hdr p mb) :
    ∃ t, TSys.Sched E calls s t ∧ t.pc a = .returned (.ok (mb, some ka)) := by
  have hab : a ≠ b := by rintro rfl; rw [han] at hbn; simp at hbn
  obtain ⟨t, ht, h, -⟩ := C141_mixed E calls s a b hab (hs a) (hs b) ma mb (some ka) none
    (s.obj.verifyVerbose E (calls a).jws (calls a).keys false (calls a).sigalg).2
    (by rw [han, ← h1]) (by
      rw [hbn]
      exact (C12_allowed E _ _ _ _ _ _ _ _ _ ht v hv hn _ _).mpr ⟨rfl, hm⟩)
  exact ⟨t, ht, h⟩

/-- If all threads ask for the same keys, algorithm and `allow_none`, the message returned is one that
passed those checks, though perhaps not the one of the caller's token. -/
theorem C141_same [DecidableEq ι] (E : Env) (calls : ι → TCall) (s t : TSys ι) (hs : s.Fresh)
    (keys : List Key) (an : Bool) (sigalg : PyVal)
    (hc : ∀ i, (calls i).keys = keys ∧ (calls i).allowNone = an ∧ (calls i).sigalg = sigalg)
    (h : TSys.Reach E calls s t) (i : ι) (m : PyVal) (ko : Option Key)
    (hi : t.pc i = .returned (.ok (m, ko))) :
    ∃ j ko', CheckedBy E s.obj ⟨(calls j).jws, keys, an, sigalg⟩ m ko' := by
  obtain ⟨-, j, ko', hj⟩ := C141_safe E calls s t hs h i m ko hi
  obtain ⟨rfl, rfl, rfl⟩ := hc j
  exact ⟨j, ko', hj⟩

/-! ### Examples -/

/-- An unsigned token with header `{"alg": "nOne"}` and payload `[]`. -/
def exUnsigned : Bytes := ascii "eyJhbGciOiJuT25lIn0.W10."

theorem exUnsigned_ok0 : (({} : Jwx).verifyVerbose toyEnv exUnsigned [] true .none).1 =
    .ok (.list [], none) := by decide +kernel

theorem exUnsigned_ok (o : Jwx) :
    (o.verifyVerbose toyEnv exUnsigned [] true .none).1 = .ok (.list [], none) := by
  have h := exUnsigned_ok0
  obtain ⟨-, s0, s1, hdr, p, sig, v, ht, hv, hn⟩ := C12_only_none _ _ _ _ _ _ _ h
  rw [C12_allowed _ _ _ _ _ _ _ _ _ _ ht v hv hn] at h ⊢
  exact h

/-- Two threads: `false` verifies the signed token `exToken` with message `{}`, `true` takes an
unsigned one with message `[]`. -/
def exCalls : Bool → TCall
  | false => ⟨exToken, [exKey], false, .none⟩
  | true => ⟨exUnsigned, [], true, .none⟩
@[inherit_doc exCalls]
def exThreads : TSys Bool := ⟨{}, fun _ => .start⟩

/-- The hypotheses of `C141_mixed` and `C141_unsigned`: the signed call of thread `false` comes back
with the unsigned message and the key. -/
theorem exThreads_mixed : ∃ t, TSys.Sched toyEnv exCalls exThreads t ∧
    t.pc false = .returned (.ok (.list [], some exKey)) ∧
    t.pc true = .returned (.ok (.list [], none)) := by
  have e1 : exThreads.obj = {} := rfl
  have e2 : exCalls false = ⟨exToken, [exKey], false, .none⟩ := rfl
  have e3 : exCalls true = ⟨exUnsigned, [], true, .none⟩ := rfl
  refine C141_mixed toyEnv exCalls exThreads false true (by simp) rfl rfl (.dict []) (.list [])
    (some exKey) none (({} : Jwx).verifyVerbose toyEnv exToken [exKey] false .none).2 ?_ ?_
  · rw [e1, e2, ← exToken_ok]
  · rw [e3]
    exact exUnsigned_ok _

theorem reach_of_sched [DecidableEq ι] {E : Env} {calls : ι → TCall} {s t : TSys ι}
    (h : TSys.Sched E calls s t) : TSys.Reach E calls s t := by
  induction h with
  | refl => exact .refl _
  | move i _ ih => exact .move i _ ih

/-- `C141_safe` on that execution: the key is vouched for by the thread's own token, the message only
by the other one. -/
example : ∃ t, TSys.Reach toyEnv exCalls exThreads t ∧
    t.pc false = .returned (.ok (.list [], some exKey)) ∧
    (∃ m', CheckedBy toyEnv exThreads.obj (exCalls false) m' (some exKey)) ∧
    ∃ j ko', CheckedBy toyEnv exThreads.obj (exCalls j) (.list []) ko' := by
  obtain ⟨t, h, hf, -⟩ := exThreads_mixed
  exact ⟨t, reach_of_sched h, hf,
    C141_safe toyEnv exCalls exThreads t (fun _ => rfl) (reach_of_sched h) false _ _ hf⟩

end Verif
