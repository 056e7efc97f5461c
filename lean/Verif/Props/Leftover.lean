import Verif.Props.JwkNew
import Verif.Model.Leftover
/-
C96: the public helpers that nothing in the package calls.
-/

namespace Verif
open Spec

theorem packU32_ok {n : Nat} {b : Bytes} (h : packU32 n = .ok b) :
    b.length = 4 ∧ bytesValue b = n ∧ n < 2 ^ 32 := by
  unfold packU32 at h
  split at h
  · next hn =>
    simp only [Except.ok.injEq] at h
    subst h
    refine ⟨rfl, ?_, hn⟩
    simp only [bytesValue, beValue, List.map_cons, List.map_nil, UInt8.toNat_ofNat', List.length_cons,
      List.length_nil, Nat.reduceAdd, Nat.reducePow]
    omega
  · simp at h

/-- `mpint(b)`: four bytes with the length of the rest, then `b` and a zero byte; reading it back with
`mp2bin` never gives `b` but always `b` with that zero byte. -/
theorem C96_mpint (b : Bytes) (hb : b.length + 1 < 2 ^ 32) :
    ∃ l, mpint b = .ok (l ++ (b ++ [0])) ∧ l.length = 4 ∧ bytesValue l = b.length + 1 ∧
      mp2bin (l ++ (b ++ [0])) = .ok (b ++ [0]) := by
  obtain ⟨l, hl⟩ : ∃ l, packU32 (b.length + 1) = .ok l := ⟨_, by rw [packU32, if_pos hb]⟩
  obtain ⟨h1, h2, -⟩ := packU32_ok hl
  refine ⟨l, by simp [mpint, hl, Bind.bind, Except.bind], h1, h2, ?_⟩
  have : ¬ (l ++ (b ++ [0])).length < 5 := by simp; omega
  rw [mp2bin, if_neg this, List.drop_left' h1]

/-- `mp2bin` drops four bytes, whatever they and the next one are; shorter input is an `IndexError`. -/
theorem C96_mp2bin (b : Bytes) :
    (∀ l c, b = l ++ c → l.length = 4 → c ≠ [] → mp2bin b = .ok c) ∧
    (b.length < 5 → mp2bin b = .error .indexError) := by
  constructor
  · rintro l c rfl hl hc
    have := List.length_pos_iff.mpr hc
    rw [mp2bin, if_neg (by simp; omega), List.drop_left' hl]
  · intro h
    rw [mp2bin, if_pos h]

/-- A non-empty party value is a `TypeError` (below the size limit of the length field), so
`_hash_input` only works without party values. -/
theorem C96_party (pv : PyVal) (h : pv.truthy = true)
    (hs : ∀ b, pv = .bytes b → (b64e b).length < 2 ^ 32) : partyValue pv = .error .typeError := by
  unfold partyValue
  rw [if_pos h]
  cases pv with
  | bytes b =>
    have h1 := hs b rfl
    simp only [int2bigendian, packU32, if_pos h1, Bind.bind, Except.bind, List.mapM_cons]
  | _ => rfl

theorem C96_hash_input (cmk : List Nat) (enc : String) (label : List Nat) (rond length : Nat)
    (epu epv : PyVal) (r : List Nat) (h : hashInput cmk enc label rond length epu epv = .ok r) :
    epu.truthy = false ∧ epv.truthy = false ∧
      r.length = cmk.length + enc.length + label.length + 16 := by
  have key : ∀ {pv : PyVal} {l : List Nat}, partyValue pv = .ok l → pv.truthy = false ∧ l.length = 4 := by
    intro pv l h
    unfold partyValue at h
    split at h
    · cases pv with
      | bytes b =>
        simp only [Bind.bind, int2bigendian] at h
        obtain ⟨x, h1, -⟩ := bind_ok_iff.mp h
        obtain ⟨y, h2, h3⟩ := bind_ok_iff.mp h1
        obtain ⟨hl, -, -⟩ := packU32_ok h2
        match y, hl with
        | a :: y, _ => simp [List.mapM_cons, Bind.bind, Except.bind] at h3
      | _ => simp at h
    · next hf =>
      simp only [Except.ok.injEq] at h
      exact ⟨by simpa using hf, by rw [← h]; rfl⟩
  unfold hashInput at h
  simp only [Bind.bind] at h
  obtain ⟨u, h1, h⟩ := bind_ok_iff.mp h
  obtain ⟨v, h2, h⟩ := bind_ok_iff.mp h
  simp only [Except.ok.injEq] at h
  obtain ⟨e1, l1⟩ := key h1
  obtain ⟨e2, l2⟩ := key h2
  refine ⟨e1, e2, ?_⟩
  rw [← h]
  simp only [List.length_append, List.length_cons, List.length_nil, List.length_map, l1, l2,
    String.length_toList]
  omega

/-- `key_eq`: two texts are compared; two RSA keys (or any other two values of one type) are a
`TypeError`, so it never says that two RSA keys are equal. -/
theorem C96_key_eq (a b : KObj) :
    (∀ s t, a = .val (.str s) → b = .val (.str t) → keyEq a b = .ok (decide (s = t))) ∧
    (∀ r r', a = .rsa r → b = .rsa r' → keyEq a b = .error .typeError) ∧
    (keyEq a b = .ok true → ∃ s, a = .val (.str s) ∧ b = .val (.str s)) := by
  refine ⟨?_, ?_, ?_⟩
  · rintro s t rfl rfl
    simp only [keyEq, sameType, if_true, Except.ok.injEq]
    rfl
  · rintro r r' rfl rfl
    rfl
  · intro h
    unfold keyEq at h
    split at h
    · split at h
      · next s t =>
        simp only [Except.ok.injEq, beq_iff_eq] at h
        subst h
        exact ⟨_, rfl, rfl⟩
      · simp at h
    · simp at h

/-- `keyitems2keyreps` on RSA keys: one `RSAKey` per library object, with its numbers, in order. -/
theorem C96_items_rsa (E : Env) (rs : List RsaKey) (ks : List Key)
    (h : keyitems2keyreps E [("RSA", rs.map fun r => (.rsa r, 0))] = .ok ks) :
    List.Forall₂ (fun r k => k.key = .rsa r ∧ ∃ m, k.mat = .rsa m ∧ m.n = .int r.n ∧ m.e = .int r.e)
      rs ks := by
  unfold keyitems2keyreps at h
  simp only [Bind.bind] at h
  obtain ⟨ls, h1, h2⟩ := bind_ok_iff.mp h
  simp only [Except.ok.injEq] at h2
  have h1 := mapM_forall₂.mp h1
  cases h1 with
  | cons h3 h4 =>
    cases h4
    simp only [List.flatten_cons, List.flatten_nil, List.append_nil] at h2
    subst h2
    have h5 := mapM_forall₂.mp h3
    simp only [List.forall₂_map_left_iff] at h5
    refine h5.imp fun r k hk => ?_
    have hi : itemKey E "RSA" (.rsa r) 0 = rsaKeyNew E [] (.rsa r) := rfl
    rw [hi] at hk
    obtain ⟨k', m, e1, e2, e3, e4, -⟩ := rsaKeyNew_rsa E [] r "" "" rfl rfl rfl (.inl rfl) (.inl rfl)
    rw [e1] at hk
    obtain rfl : k' = k := by simpa using hk
    exact ⟨e2, m, e3, e4.n, e4.e⟩

/-! Instances. -/

example : mpint [1, 2] = .ok [0, 0, 0, 3, 1, 2, 0] := by decide +kernel

example : ∃ l, mpint [1, 2] = .ok (l ++ [1, 2, 0]) ∧ mp2bin (l ++ [1, 2, 0]) = .ok [1, 2, 0] := by
  obtain ⟨l, h, _, _, h2⟩ := C96_mpint [1, 2] (by decide)
  exact ⟨l, h, h2⟩

example : partyValue (.bytes [65]) = .error .typeError :=
  C96_party _ (by decide) (by rintro b h; cases h; decide +kernel)

example : ∃ r, hashInput [1, 2] "A128GCM" [3] 1 128 (.str "") .none = .ok r ∧ r.length = 26 :=
  ⟨_, rfl, (C96_hash_input [1, 2] "A128GCM" [3] 1 128 (.str "") .none _ rfl).2.2⟩

example : keyEq (.rsa ⟨15, 3, none⟩) (.rsa ⟨15, 3, none⟩) = .error .typeError :=
  (C96_key_eq _ _).2.1 _ _ rfl rfl

example : ∃ a b, keyitems2keyreps toyEnv [("RSA", [(.rsa ⟨15, 3, none⟩, 0), (.rsa ⟨33, 3, none⟩, 0)])] =
    .ok [a, b] ∧ b.key = .rsa ⟨33, 3, none⟩ := ⟨_, _, rfl, rfl⟩

end Verif
