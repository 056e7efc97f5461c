import Verif.Props.JweGate
import Verif.Props.JweKid
/-
C134: keys that do not concern an encrypted token.
-/

namespace Verif
open Spec

theorem tokenOf_unpacked {o : Jwe} {token t : Bytes} {j : Jwt} (h : Received o token t) (hj : Jwt.unpack t = .ok j) :
    o.tokenOf token = .ok j := by
  unfold Jwe.tokenOf
  rcases h with ⟨h, rfl⟩ | ⟨rfl, j', h1, h2⟩
  · rw [if_pos h, hj]
  · rw [hj] at h2
    cases h2
    simp [h1]

/-- **C134.** A key that is sorted out for the token (by type, `kid`, `use` or `alg`) can be put into the list anywhere or taken
from it: the message or the exception is the same, and so is what the call leaves.  The list must not become empty, since then
the object's own key is used. -/
theorem C134_unused {E : Env} {o : Jwe} {rnd : JweRnd} {token t : Bytes} {j : Jwt} {h' : PyDict} (hr : Received o token t)
    (hu : Jwt.unpack t = .ok j) (hj : j.headers = .dict h') {name : String} {m : KeyMgmt} (hal : PyDict.get? h' "alg" = some (.str name))
    (hm : MgmtName name m) {wk : PyVal} (hsk : SignKid o.toJwx wk) {pre post : List Key} {k : Key} (hne : pre ++ post ≠ [])
    (hk : ¬ EncPicked m name wk k) (alg : PyVal) (cek : Bytes) :
    o.decrypt E rnd token (pre ++ k :: post) alg cek = o.decrypt E rnd token (pre ++ post) alg cek := by
  obtain ⟨p, hp, h1⟩ := pickKeys_filter hm o.toJwx (wantedKid_of_signKid hsk) (pre ++ k :: post)
  obtain ⟨q, hq, h2⟩ := pickKeys_filter hm o.toJwx (wantedKid_of_signKid hsk) (pre ++ post)
  have hpq : q = p := funext fun x => by rw [Bool.eq_iff_iff, hq, hp]
  subst hpq
  have hk' : q k = false := Bool.eq_false_iff.mpr fun h => hk ((hq k).mp h)
  have hl : (pre ++ k :: post).filter q = (pre ++ post).filter q := by
    rw [List.filter_append, List.filter_append, List.filter_cons, hk']
    simp
  have hs1 : o.toJwx.keySource E (pre ++ k :: post) = .ok ((pre ++ k :: post).map JKey.key) :=
    keySource_of_eff (.inl ⟨by simp, rfl⟩)
  have hs2 : o.toJwx.keySource E (pre ++ post) = .ok ((pre ++ post).map JKey.key) := keySource_of_eff (.inl ⟨hne, rfl⟩)
  have hd : o.decryptJwt E rnd j (pre ++ k :: post) alg cek = o.decryptJwt E rnd j (pre ++ post) alg cek := by
    unfold Jwe.decryptJwt
    simp only [hj, PyVal.getItem, hal, Bind.bind, Except.bind, hs1, hs2, h1, h2, hl]
  unfold Jwe.decrypt
  simp only [tokenOf_unpacked hr hu, Bind.bind, Except.bind, hd]

theorem pickKeys_append (a2k : PyVal → PyM (Option String)) (o : Jwx) (l l' : List Key) (use : String) (alg : PyVal) {ks : List Key}
    (h : o.pickKeys a2k (l.map JKey.key) use alg = .ok ks) :
    ∃ ks', o.pickKeys a2k ((l ++ l').map JKey.key) use alg = .ok (ks ++ ks') := by
  unfold Jwx.pickKeys at h ⊢
  simp only [Bind.bind] at h ⊢
  obtain ⟨a, ha, h⟩ := bind_ok_iff.mp h
  rw [ha, ebind_ok]
  split at h
  · rename_i hn
    rw [if_pos hn]
    cases h
    exact ⟨[], rfl⟩
  rename_i hn
  rw [if_neg hn]
  obtain ⟨kt, hkt, h⟩ := bind_ok_iff.mp h
  rw [hkt, ebind_ok]
  cases kt with
  | none => cases h; exact ⟨[], rfl⟩
  | some kt =>
    simp only [keysOfType_keys, ebind_ok] at h ⊢
    obtain ⟨kid, hkid, h⟩ := bind_ok_iff.mp h
    rw [hkid, ebind_ok]
    cases h
    exact ⟨_, by rw [List.filter_append, List.filter_append]⟩

theorem decryptLoop_append {E : Env} {kind : JweKind} {rnd : JweRnd} {j : Jwt} {setup : Bytes × Bytes × Bytes × Bytes} {alg : PyVal}
    {r : Bytes × PyVal} (l' : List Key) : ∀ (l : List Key) (i : Nat), decryptLoop E kind rnd j setup alg i l = .ok r →
      decryptLoop E kind rnd j setup alg i (l ++ l') = .ok r
  | [], i, h => by cases h
  | k :: l, i, h => by
    simp only [List.cons_append, decryptLoop] at h ⊢
    split at h
    · cases h
    · rename_i key hk
      split at h
      · rename_i r' hr
        cases h
        rfl
      · split at h
        · rename_i hp
          rw [if_pos hp]
          exact decryptLoop_append l' l (i + 1) h
        · cases h

theorem decryptTry_append {E : Env} {kind : JweKind} {rnd : JweRnd} {j : Jwt} {setup : Bytes × Bytes × Bytes × Bytes} {alg : PyVal}
    {r : Bytes × PyVal} {cek : Bytes} (l l' : List Key) (h : decryptTry E kind rnd j setup alg l cek = .ok r) :
    decryptTry E kind rnd j setup alg (l ++ l') cek = .ok r := by
  unfold decryptTry at h ⊢
  split at h
  · rename_i hc
    rw [if_pos hc]
    exact decryptLoop_append l' l 0 h
  · rename_i hc
    rw [if_neg hc]
    split at h
    · exact h
    · split at h
      · rename_i hp
        rw [if_pos hp]
        exact decryptLoop_append l' l 0 h
      · cases h

/-- **C134.** Keys of any kind added at the end of the list do not change a decryption that succeeds. -/
theorem C134_append {E : Env} {o : Jwe} {rnd : JweRnd} {token : Bytes} {keys : List Key} (hne : keys ≠ []) (more : List Key) {alg : PyVal}
    {cek m : Bytes} (h : (o.decrypt E rnd token keys alg cek).1 = .ok m) :
    o.decrypt E rnd token (keys ++ more) alg cek = o.decrypt E rnd token keys alg cek := by
  have hs1 : o.toJwx.keySource E keys = .ok (keys.map JKey.key) := keySource_of_eff (.inl ⟨hne, rfl⟩)
  have hs2 : o.toJwx.keySource E (keys ++ more) = .ok ((keys ++ more).map JKey.key) := keySource_of_eff (.inl ⟨by simp [hne], rfl⟩)
  have hd : ∀ j r, o.decryptJwt E rnd j keys alg cek = .ok r → o.decryptJwt E rnd j (keys ++ more) alg cek = .ok r := by
    intro j r h
    unfold Jwe.decryptJwt at h ⊢
    simp only [Bind.bind] at h ⊢
    obtain ⟨halg, h1, h2⟩ := bind_ok_iff.mp h
    rw [h1, ebind_ok]
    split at h2
    · cases h2
    rename_i hc
    rw [if_neg hc]
    rw [hs1, ebind_ok] at h2
    rw [hs2, ebind_ok]
    obtain ⟨ks, h3, h4⟩ := bind_ok_iff.mp h2
    obtain ⟨ks', h5⟩ := pickKeys_append _ _ _ more _ _ h3
    rw [h5, ebind_ok]
    split at h4
    · cases h4
    rename_i hk
    rw [if_neg (by rintro ⟨hx, hy⟩; exact hk ⟨(List.append_eq_nil_iff.mp hx).1, hy⟩)]
    obtain ⟨kd, h6, h7⟩ := bind_ok_iff.mp h4
    rw [h6, ebind_ok]
    cases kd with
    | rsa => exact decryptTry_append _ _ h7
    | sym => exact decryptTry_append _ _ h7
    | ec =>
      cases ks with
      | nil => cases h7
      | cons k ks =>
        simp only [List.cons_append] at h7 ⊢
        obtain ⟨s, h8, h9⟩ := bind_ok_iff.mp h7
        rw [h8, ebind_ok]
        exact decryptTry_append (k :: ks) ks' h9
  unfold Jwe.decrypt at h ⊢
  cases ht : o.tokenOf token with
  | error e => simp only [ht, Bind.bind, Except.bind] at h; cases h
  | ok j =>
    simp only [ht, Bind.bind, Except.bind] at h ⊢
    cases hx : o.decryptJwt E rnd j keys alg cek with
    | error e => rw [hx] at h; cases h
    | ok r => rw [hd j r hx]

/-! ### Examples -/

/-- `{"alg":"RSA-OAEP"}` and four segments. -/
def exOaepText : Bytes := ascii "eyJhbGciOiJSU0EtT0FFUCJ9.AAAA.AAAA.AAAA.AAAA"

/-- An oct key and a key for signing do not concern it, wherever they are and whatever the other keys. -/
example (E : Env) (rnd : JweRnd) (pre post : List Key) (hne : pre ++ post ≠ []) :
    ({} : Jwe).decrypt E rnd exOaepText (pre ++ exShared :: post) .none [] = ({} : Jwe).decrypt E rnd exOaepText (pre ++ post) .none [] ∧
    ({} : Jwe).decrypt E rnd exOaepText (pre ++ { exRsaPriv with use := .str "sig" } :: post) .none [] =
      ({} : Jwe).decrypt E rnd exOaepText (pre ++ post) .none [] := by
  have hu : ∃ j, Jwt.unpack exOaepText = .ok j ∧ j.headers = .dict [("alg", .str "RSA-OAEP")] := by
    have h : (match Jwt.unpack exOaepText with
      | .ok j => decide (j.headers = .dict [("alg", .str "RSA-OAEP")])
      | .error _ => false) = true := by decide +kernel
    split at h
    · rename_i j hj
      exact ⟨j, hj, of_decide_eq_true h⟩
    · cases h
  obtain ⟨j, hj, hh⟩ := hu
  have hr : Received ({} : Jwe) exOaepText exOaepText := .inl ⟨by decide, rfl⟩
  refine ⟨C134_unused hr hj hh rfl .oaep (wk := .none) (.inr ⟨rfl, .inl ⟨rfl, rfl⟩⟩) hne ?_ _ _,
    C134_unused hr hj hh rfl .oaep (wk := .none) (.inr ⟨rfl, .inl ⟨rfl, rfl⟩⟩) hne ?_ _ _⟩
  · rintro ⟨h, -⟩
    exact absurd (spelled_str h) (by decide)
  · rintro ⟨-, -, h, -⟩
    revert h
    decide

/-- A token that the first key opens, and any further keys. -/
example : ∃ t, (exNamedWrapper.encrypt toyEnv exRnd [exShared]).1 = .ok t ∧ ∀ more,
    (({} : Jwe).decrypt toyEnv exRnd (utf8Encode t) ([exShared] ++ more) .none []).1 = .ok (utf8Encode "hello") := by
  have h : (match (exNamedWrapper.encrypt toyEnv exRnd [exShared]).1 with
    | .ok t => decide ((({} : Jwe).decrypt toyEnv exRnd (utf8Encode t) [exShared] .none []).1 = .ok (utf8Encode "hello"))
    | .error _ => false) = true := by decide +kernel
  split at h
  · rename_i t ht
    refine ⟨t, ht, fun more => ?_⟩
    have hd := of_decide_eq_true h
    rw [C134_append (by simp) more hd]
    exact hd
  · cases h

end Verif
