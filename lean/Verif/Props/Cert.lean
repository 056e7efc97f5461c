import Verif.Model.Cert
import Verif.Spec.Der
import Verif.Props.JwkLoad
import Verif.Proofs.Base64
import Verif.Props.JweForm
/-
C126: the RSA key of a certificate.
-/

namespace Verif

open Spec

/-! ### DER objects -/

theorem derRead_ok {n : Nat} {s p r : Bytes} : derRead n s = .ok (p, r) ↔ s = p ++ r ∧ p.length = n := by
  unfold derRead
  split
  · constructor
    · intro h; cases h
    · rintro ⟨rfl, rfl⟩
      rename_i h
      simp at h
  · rename_i hn
    constructor
    · intro h
      cases h
      exact ⟨(List.take_append_drop n s).symm, by simp; omega⟩
    · rintro ⟨rfl, rfl⟩
      simp

theorem derLen_ok {s r : Bytes} {n : Nat} : derLen s = .ok (n, r) ↔ ∃ l, DerLength n l ∧ s = l ++ r := by
  constructor
  · intro h
    cases s with
    | nil => cases h
    | cons c s =>
      simp only [derLen, Bind.bind] at h
      split at h
      · rename_i hc
        cases h
        exact ⟨[c], .short (by omega), rfl⟩
      · rename_i hc
        obtain ⟨⟨e, s'⟩, he, h2⟩ := bind_ok_iff.mp h
        obtain ⟨rfl, hl⟩ := derRead_ok.mp he
        dsimp only at h2
        split at h2
        · cases h2
        · cases h2
        · rename_i h0 hz
          split at h2
          · cases h2
          · rename_i hn
            cases h2
            refine ⟨c :: e, .long (by omega) (fun h => h0 h) (fun h => ?_) (by omega), by simp⟩
            cases e with
            | nil => cases h
            | cons a e =>
              simp only [List.head?_cons, Option.some.injEq] at h
              subst h
              exact hz _ rfl
  · rintro ⟨l, h, rfl⟩
    cases h with
    | short h =>
      unfold derLen
      simp only [List.cons_append, List.nil_append]
      rw [if_pos (by omega)]
    | long hl h0 hz hn =>
      rename_i c b
      unfold derLen
      simp only [List.cons_append]
      have h1 : b.length ≠ 0 := by simpa using h0
      rw [if_neg (by omega)]
      have hr : derRead (c.toNat - 128) (b ++ r) = .ok (b, r) := derRead_ok.mpr ⟨rfl, by omega⟩
      rw [hr]
      simp only [Bind.bind, Except.bind]
      split
      · rename_i h; exact absurd rfl h0
      · simp at hz
      · rw [if_neg (by omega)]

theorem derObject_ok {s p r : Bytes} {t : UInt8} : derObject s = .ok (t, p, r) ↔ ∃ e, Tlv t p e ∧ s = e ++ r := by
  constructor
  · intro h
    cases s with
    | nil => cases h
    | cons c s =>
      unfold derObject at h
      simp only [Bind.bind] at h
      obtain ⟨⟨n, s1⟩, hn, h⟩ := bind_ok_iff.mp h
      obtain ⟨⟨p', s2⟩, hp, h⟩ := bind_ok_iff.mp h
      cases h
      obtain ⟨l, hl, rfl⟩ := derLen_ok.mp hn
      obtain ⟨rfl, rfl⟩ := derRead_ok.mp hp
      exact ⟨_, ⟨l, hl, rfl⟩, by simp⟩
  · rintro ⟨e, ⟨l, hl, rfl⟩, rfl⟩
    unfold derObject
    simp only [List.cons_append, List.append_assoc]
    rw [derLen_ok.mpr ⟨l, hl, rfl⟩]
    simp only [Bind.bind, Except.bind]
    rw [derRead_ok.mpr ⟨rfl, rfl⟩]

/-- No encoding is the beginning of another one. -/
theorem tlv_prefix {t t' : UInt8} {c c' e e' r r' : Bytes} (h : Tlv t c e) (h' : Tlv t' c' e') (he : e ++ r = e' ++ r') :
    t = t' ∧ c = c' ∧ e = e' ∧ r = r' := by
  have h1 : derObject (e ++ r) = .ok (t, c, r) := derObject_ok.mpr ⟨e, h, rfl⟩
  have h2 : derObject (e' ++ r') = .ok (t', c', r') := derObject_ok.mpr ⟨e', h', rfl⟩
  rw [he, h2] at h1
  cases h1
  exact ⟨rfl, rfl, List.append_cancel_right he, rfl⟩

theorem tlv_head {t : UInt8} {c e : Bytes} (h : Tlv t c e) : e.head? = some t := by
  obtain ⟨l, -, rfl⟩ := h; rfl

theorem tlv_long {t : UInt8} {c e : Bytes} (h : Tlv t c e) : 2 ≤ e.length := by
  obtain ⟨l, hl, rfl⟩ := h
  generalize c.length = n at hl
  cases hl <;> simp

/-! ### Sequences -/

/-- What a sequence object holds for the encoding `i`. -/
def elemOf (i : Bytes) : DerElem :=
  match derObject i with
  | .ok (t, p, _) => if t = 2 then .int (derInt p) else .raw i
  | .error _ => .raw i

theorem elemOf_tlv {t : UInt8} {c i : Bytes} (h : Tlv t c i) : elemOf i = if t = 2 then .int (derInt c) else .raw i := by
  unfold elemOf
  have : derObject (i ++ []) = .ok (t, c, []) := derObject_ok.mpr ⟨i, h, rfl⟩
  rw [List.append_nil] at this
  rw [this]

theorem derElems_ok : ∀ (fuel : Nat) (s : Bytes) (l : List DerElem), derElems fuel s = .ok l →
    ∃ items : List Bytes, s = items.flatten ∧ (∀ i ∈ items, ∃ t c, Tlv t c i) ∧ l = items.map elemOf := by
  intro fuel
  induction fuel with
  | zero =>
    intro s l h
    cases s with
    | nil => cases h; exact ⟨[], rfl, by simp, rfl⟩
    | cons => cases h
  | succ fuel ih =>
    intro s l h
    cases s with
    | nil => cases h; exact ⟨[], rfl, by simp, rfl⟩
    | cons a s =>
      unfold derElems at h
      simp only [Bind.bind] at h
      obtain ⟨⟨t, p, r⟩, ho, h⟩ := bind_ok_iff.mp h
      obtain ⟨l', hl, h⟩ := bind_ok_iff.mp h
      obtain ⟨e, he, hs⟩ := derObject_ok.mp ho
      obtain ⟨items, rfl, hi, rfl⟩ := ih _ _ hl
      cases h
      refine ⟨e :: items, by rw [hs]; simp, ?_, ?_⟩
      · simp only [List.mem_cons, forall_eq_or_imp]
        exact ⟨⟨t, p, he⟩, hi⟩
      · rw [List.map_cons, elemOf_tlv he]
        have : (a :: s).take ((a :: s).length - items.flatten.length) = e := by
          rw [hs]; simp
        rw [this]

/-- The loop ends by itself. -/
theorem derElems_total : ∀ (items : List Bytes) (fuel : Nat), (∀ i ∈ items, ∃ t c, Tlv t c i) → items.flatten.length ≤ fuel →
    derElems fuel items.flatten = .ok (items.map elemOf) := by
  intro items
  induction items with
  | nil => intro fuel _ _; cases fuel <;> rfl
  | cons i items ih =>
    intro fuel h hf
    simp only [List.mem_cons, forall_eq_or_imp] at h
    obtain ⟨⟨t, c, ht⟩, h⟩ := h
    have h2 := tlv_long ht
    simp only [List.flatten_cons, List.length_append] at hf
    obtain ⟨a, s, hi⟩ : ∃ a s, i = a :: s := by
      cases i with
      | nil => simp at h2
      | cons a s => exact ⟨a, s, rfl⟩
    cases fuel with
    | zero => omega
    | succ fuel =>
      have hn : (i :: items).flatten = a :: (s ++ items.flatten) := by rw [hi]; rfl
      have ho : derObject (i :: items).flatten = .ok (t, c, items.flatten) := derObject_ok.mpr ⟨i, ht, rfl⟩
      have ho' := ho
      rw [hn] at ho' ⊢
      unfold derElems
      rw [ho']
      simp only [Bind.bind, Except.bind]
      rw [ih fuel h (by omega)]
      simp only [List.map_cons]
      rw [elemOf_tlv ht, ← hn]
      simp

theorem derSequence_ok {b : Bytes} {l : List DerElem} :
    derSequence b = .ok l ↔ ∃ items, DerSeq items b ∧ l = items.map elemOf := by
  unfold derSequence
  constructor
  · intro h
    simp only [Bind.bind] at h
    obtain ⟨⟨t, p, r⟩, ho, h⟩ := bind_ok_iff.mp h
    dsimp only at h
    split at h
    · cases h
    · rename_i ht
      obtain ⟨l', hl, h⟩ := bind_ok_iff.mp h
      split at h
      · cases h
      · rename_i hr
        cases h
        obtain ⟨e, he, rfl⟩ := derObject_ok.mp ho
        obtain ⟨items, rfl, hi, rfl⟩ := derElems_ok _ _ _ hl
        have hr' : r = [] := by simpa using hr
        have ht' : t = 0x30 := by simpa using ht
        subst hr' ht'
        exact ⟨items, ⟨by simpa using he, hi⟩, rfl⟩
  · rintro ⟨items, ⟨h1, h2⟩, rfl⟩
    have : derObject (b ++ []) = .ok (0x30, items.flatten, []) := derObject_ok.mpr ⟨b, h1, rfl⟩
    rw [List.append_nil] at this
    rw [this]
    simp only [Bind.bind, Except.bind]
    rw [if_neg (by simp), derElems_total items _ h2 (le_refl _)]
    simp

theorem derSeq_unique {a b : List Bytes} {e : Bytes} (h : DerSeq a e) (h' : DerSeq b e) : a = b := by
  obtain ⟨-, hf, -, -⟩ := tlv_prefix h.1 h'.1 rfl (r := []) (r' := [])
  obtain ⟨-, h⟩ := h
  obtain ⟨-, h'⟩ := h'
  induction a generalizing b with
  | nil =>
    cases b with
    | nil => rfl
    | cons i b =>
      simp only [List.mem_cons, forall_eq_or_imp] at h'
      obtain ⟨⟨t, c, ht⟩, -⟩ := h'
      have := tlv_long ht
      have h3 := congrArg List.length hf
      simp only [List.flatten_nil, List.length_nil, List.flatten_cons, List.length_append] at h3
      omega
  | cons i a ih =>
    simp only [List.mem_cons, forall_eq_or_imp] at h
    obtain ⟨⟨t, c, ht⟩, h⟩ := h
    cases b with
    | nil =>
      have := tlv_long ht
      have h3 := congrArg List.length hf
      simp only [List.flatten_nil, List.length_nil, List.flatten_cons, List.length_append] at h3
      omega
    | cons k b =>
      simp only [List.mem_cons, forall_eq_or_imp] at h'
      obtain ⟨⟨t', c', ht'⟩, h'⟩ := h'
      obtain ⟨-, -, rfl, hr⟩ := tlv_prefix ht ht' hf
      rw [ih (b := b) hr h h']

/-! ### The key of a certificate -/

theorem derAt_map {items : List Bytes} {i : Nat} : derAt (items.map elemOf) i =
    match items[i]? with | some b => .ok (elemOf b) | none => .error .indexError := by
  unfold derAt
  rw [List.getElem?_map]
  cases items[i]? <;> rfl

/-- The decoding of a certificate. -/
theorem der2rsa_cert (imp : Bytes → PyM RsaKey) {tbs sig : List Bytes} {e : Bytes} (h : Certificate tbs sig e) :
    der2rsa imp e = match tbs[6]? with
      | some b => (match elemOf b with | .raw b => imp b | .int _ => .error .valueError)
      | none => .error .indexError := by
  obtain ⟨t, ht, he⟩ := h
  unfold der2rsa
  rw [derSequence_ok.mpr ⟨_, he, rfl⟩]
  have h0 : elemOf t = .raw t := by rw [elemOf_tlv ht.1]; rfl
  simp only [Bind.bind, Except.bind, derAt_map, List.getElem?_cons_zero, h0]
  rw [derSequence_ok.mpr ⟨_, ht, rfl⟩]
  simp only [derAt_map]
  cases tbs[6]? <;> rfl

/-- **C126.** The key is the seventh field of the part that is signed, as the RSA library reads it, whatever the other fields and
the signature are. -/
theorem C126_key (imp : Bytes → PyM RsaKey) {tbs sig : List Bytes} {e spki : Bytes} (h : Certificate tbs sig e)
    (hs : tbs[6]? = some spki) (ht : spki.head? = some 0x30) : der2rsa imp e = imp spki := by
  rw [der2rsa_cert imp h, hs]
  obtain ⟨t, hd, -⟩ := h
  obtain ⟨t', c, hc⟩ := hd.2 spki (List.mem_of_getElem? hs)
  have := tlv_head hc
  rw [ht] at this
  cases this
  dsimp only
  rw [elemOf_tlv hc]
  rfl

/-- **C126.** A certificate without the version field (version 1 of X.509) has its key in the sixth place, and no
seventh: it is refused with an `IndexError`. -/
theorem C126_v1 (imp : Bytes → PyM RsaKey) {tbs sig : List Bytes} {e : Bytes} (h : Certificate tbs sig e) (hl : tbs.length ≤ 6) :
    der2rsa imp e = .error .indexError := by
  rw [der2rsa_cert imp h, List.getElem?_eq_none hl]

/-- **C126.** Only certificates give keys. -/
theorem C126_exact (imp : Bytes → PyM RsaKey) {e : Bytes} {r : RsaKey} : der2rsa imp e = .ok r ↔
    ∃ tbs sig spki, Certificate tbs sig e ∧ tbs[6]? = some spki ∧ spki.head? ≠ some 2 ∧ imp spki = .ok r := by
  constructor
  · intro h
    unfold der2rsa at h
    simp only [Bind.bind] at h
    obtain ⟨cert, hc, h⟩ := bind_ok_iff.mp h
    obtain ⟨tbs, ht, h⟩ := bind_ok_iff.mp h
    obtain ⟨c0, h0, ht⟩ := bind_ok_iff.mp ht
    obtain ⟨c6, h6, h⟩ := bind_ok_iff.mp h
    obtain ⟨items, hi, rfl⟩ := derSequence_ok.mp hc
    cases c0 with
    | int i => cases ht
    | raw b =>
      dsimp only at ht
      obtain ⟨tb, hb, rfl⟩ := derSequence_ok.mp ht
      rw [derAt_map] at h0 h6
      cases items with
      | nil => cases h0
      | cons i0 sig =>
        obtain ⟨⟨t0, x0, hx0⟩, -⟩ := by simpa using hi.2
        simp only [List.getElem?_cons_zero, Except.ok.injEq] at h0
        rw [elemOf_tlv hx0] at h0
        split at h0
        · cases h0
        · cases h0
          cases hs : tb[6]? with
          | none => rw [hs] at h6; cases h6
          | some spki =>
            rw [hs] at h6
            simp only [Except.ok.injEq] at h6
            obtain ⟨t6, x6, hx6⟩ := hb.2 spki (List.mem_of_getElem? hs)
            rw [elemOf_tlv hx6] at h6
            split at h6
            · subst h6; cases h
            · subst h6
              rename_i hne
              refine ⟨tb, sig, spki, ⟨_, hb, hi⟩, hs, ?_, h⟩
              rw [tlv_head hx6]
              simpa using hne
  · rintro ⟨tbs, sig, spki, hc, hs, hne, hr⟩
    rw [der2rsa_cert imp hc, hs]
    obtain ⟨t, hd, -⟩ := hc
    obtain ⟨t', c, hc⟩ := hd.2 spki (List.mem_of_getElem? hs)
    rw [tlv_head hc] at hne
    dsimp only
    rw [elemOf_tlv hc, if_neg (by simpa using hne)]
    exact hr

/-- **C126.** The signature has no influence. -/
theorem C126_signature (imp : Bytes → PyM RsaKey) {tbs sig sig' : List Bytes} {e e' : Bytes} (h : Certificate tbs sig e)
    (h' : Certificate tbs sig' e') : der2rsa imp e = der2rsa imp e' := by
  rw [der2rsa_cert imp h, der2rsa_cert imp h']

/-- **C126.** Nothing may follow or be missing. -/
theorem C126_whole (imp : Bytes → PyM RsaKey) {e x : Bytes} {r r' : RsaKey} (h : der2rsa imp e = .ok r)
    (h' : der2rsa imp (e ++ x) = .ok r') : x = [] := by
  obtain ⟨_, _, _, ⟨_, -, h, -⟩, -⟩ := (C126_exact imp).mp h
  obtain ⟨_, _, _, ⟨_, -, h', -⟩, -⟩ := (C126_exact imp).mp h'
  exact (tlv_prefix h h' (r := x) (r' := []) (by simp)).2.2.2

/-! ### The key object -/

theorem b64Val_char : ∀ n < 64, b64Val (b64Char n) = some n ∧ b64Char n ≠ 61 ∧ b64Char n < 128 := by decide +kernel

/-- The decoder undoes the encoder, before a tail. -/
theorem a2b_enc (d : Bytes) (k : Nat) : a2bLoop (enc' d ++ List.replicate k 61) 0 0 0 =
    if d.length % 3 = 0 ∨ (d.length % 3 = 1 ∧ 2 ≤ k) ∨ (d.length % 3 = 2 ∧ 1 ≤ k) then .ok d else .error .binasciiError := by
  fun_induction enc' d with
  | case1 =>
    rw [List.nil_append, a2bLoop_pads _ _ _ (by omega)]
    simp
  | case2 a =>
    have := a.toNat_lt
    obtain ⟨h1, h1', -⟩ := b64Val_char (a.toNat / 4) (by omega)
    obtain ⟨h2, h2', -⟩ := b64Val_char (a.toNat % 4 * 16) (by omega)
    have e : UInt8.ofNat (a.toNat / 4 * 4 + a.toNat % 4 * 16 / 16) = a := by
      have : a.toNat / 4 * 4 + a.toNat % 4 * 16 / 16 = a.toNat := by omega
      rw [this]; exact UInt8.ofNat_toNat
    simp only [List.cons_append, List.nil_append, a2bLoop, h1, h1', h2, h2', if_false, if_true, e, Nat.one_ne_zero]
    rw [a2bLoop_pads _ _ _ (by omega)]
    simp only [List.length_cons, List.length_nil]
    split <;> rename_i hk <;> simp only [Except.map] <;> simp at hk ⊢ <;> omega
  | case3 a b =>
    have := a.toNat_lt
    have := b.toNat_lt
    obtain ⟨h1, h1', -⟩ := b64Val_char (a.toNat / 4) (by omega)
    obtain ⟨h2, h2', -⟩ := b64Val_char (a.toNat % 4 * 16 + b.toNat / 16) (by omega)
    obtain ⟨h3, h3', -⟩ := b64Val_char (b.toNat % 16 * 4) (by omega)
    have e : UInt8.ofNat (a.toNat / 4 * 4 + (a.toNat % 4 * 16 + b.toNat / 16) / 16) = a := by
      have : a.toNat / 4 * 4 + (a.toNat % 4 * 16 + b.toNat / 16) / 16 = a.toNat := by omega
      rw [this]; exact UInt8.ofNat_toNat
    have e2 : UInt8.ofNat ((a.toNat % 4 * 16 + b.toNat / 16) % 16 * 16 + b.toNat % 16 * 4 / 4) = b := by
      have : (a.toNat % 4 * 16 + b.toNat / 16) % 16 * 16 + b.toNat % 16 * 4 / 4 = b.toNat := by omega
      rw [this]; exact UInt8.ofNat_toNat
    simp only [List.cons_append, List.nil_append, a2bLoop, h1, h1', h2, h2', h3, h3', if_false, if_true, e, e2, Nat.one_ne_zero,
      OfNat.ofNat_ne_zero, OfNat.ofNat_ne_one]
    rw [a2bLoop_pads _ _ _ (by omega)]
    simp only [List.length_cons, List.length_nil]
    split <;> rename_i hk <;> simp only [Except.map] <;> simp at hk ⊢ <;> omega
  | case4 a b c rest ih =>
    have := a.toNat_lt
    have := b.toNat_lt
    have := c.toNat_lt
    obtain ⟨h1, h1', -⟩ := b64Val_char (a.toNat / 4) (by omega)
    obtain ⟨h2, h2', -⟩ := b64Val_char (a.toNat % 4 * 16 + b.toNat / 16) (by omega)
    obtain ⟨h3, h3', -⟩ := b64Val_char (b.toNat % 16 * 4 + c.toNat / 64) (by omega)
    obtain ⟨h4, h4', -⟩ := b64Val_char (c.toNat % 64) (by omega)
    have e : UInt8.ofNat (a.toNat / 4 * 4 + (a.toNat % 4 * 16 + b.toNat / 16) / 16) = a := by
      have : a.toNat / 4 * 4 + (a.toNat % 4 * 16 + b.toNat / 16) / 16 = a.toNat := by omega
      rw [this]; exact UInt8.ofNat_toNat
    have e2 : UInt8.ofNat ((a.toNat % 4 * 16 + b.toNat / 16) % 16 * 16 + (b.toNat % 16 * 4 + c.toNat / 64) / 4) = b := by
      have : (a.toNat % 4 * 16 + b.toNat / 16) % 16 * 16 + (b.toNat % 16 * 4 + c.toNat / 64) / 4 = b.toNat := by omega
      rw [this]; exact UInt8.ofNat_toNat
    have e3 : UInt8.ofNat ((b.toNat % 16 * 4 + c.toNat / 64) % 4 * 64 + c.toNat % 64) = c := by
      have : (b.toNat % 16 * 4 + c.toNat / 64) % 4 * 64 + c.toNat % 64 = c.toNat := by omega
      rw [this]; exact UInt8.ofNat_toNat
    simp only [List.cons_append, a2bLoop, h1, h1', h2, h2', h3, h3', h4, h4', if_false, if_true, e, e2, e3, Nat.one_ne_zero,
      OfNat.ofNat_ne_zero, OfNat.ofNat_ne_one, ih]
    have hl : (a :: b :: c :: rest).length % 3 = rest.length % 3 := by simp only [List.length_cons]; omega
    rw [hl]
    norm_num
    split <;> rfl

/-- `base64.b64decode(base64.b64encode(d)) == d`. -/
theorem a2b_b64encode (d : Bytes) : a2bBase64 (b64encode d) = .ok d := by
  have : ∃ k, b64encode d = enc' d ++ List.replicate k 61 ∧
      (d.length % 3 = 0 ∨ (d.length % 3 = 1 ∧ 2 ≤ k) ∨ (d.length % 3 = 2 ∧ 1 ≤ k)) := by
    fun_induction b64encode d with
    | case1 => exact ⟨0, rfl, .inl rfl⟩
    | case2 a => exact ⟨2, rfl, .inr (.inl ⟨rfl, by omega⟩)⟩
    | case3 a b => exact ⟨1, rfl, .inr (.inr ⟨rfl, by omega⟩)⟩
    | case4 a b c rest ih =>
      obtain ⟨k, hk, h⟩ := ih
      exact ⟨k, by simp [enc', hk], by simp only [List.length_cons]; omega⟩
  obtain ⟨k, hk, h⟩ := this
  unfold a2bBase64
  rw [hk, a2b_enc, if_pos h]

/-- The environment reads certificates with `der2rsa`. -/
def Spec.ReadsCerts (E : Env) (imp : Bytes → PyM RsaKey) : Prop := ∀ der, E.R.fromCert der = der2rsa imp der

/-- **C126.** `RSAKey(x5c=[...])` without numbers and thumbprint, the first text being the base64 of a certificate: the key is that
of the certificate's key field. -/
theorem C126_x5c {E : Env} {imp : Bytes → PyM RsaKey} (hE : ReadsCerts E imp) {kw : PyDict} {s : String} {rest : List PyVal}
    (h : CertArgs kw s rest "") {e spki : Bytes} (hs : asciiEncode s = .ok (b64encode e)) {tbs sig : List Bytes}
    (hc : Certificate tbs sig e) (h6 : tbs[6]? = some spki) (ht : spki.head? = some 0x30) {r : RsaKey} (hr : imp spki = .ok r) :
    ∃ k m, rsaKeyNew E kw (.val .none) = .ok k ∧ k.key = .rsa r ∧ k.mat = .rsa m ∧ m.n = .int r.n ∧ m.e = .int r.e := by
  have hf : CertFor E s "" r := ⟨_, e, hs, a2b_b64encode e, by rw [hE, C126_key imp hc h6 ht]; exact hr, by simp⟩
  obtain ⟨k, hk, hkey⟩ := (C80_cert E kw s "" rest r h).mpr hf
  obtain ⟨r', m, -, h1, h2, h3, h4⟩ := C80_material E kw s "" rest k h hk
  rw [hkey] at h1
  cases h1
  exact ⟨k, m, hk, hkey, h2, h3, h4⟩

/-- **C126.** With a version 1 certificate the constructor raises `IndexError`. -/
theorem C126_x5c_v1 {E : Env} {imp : Bytes → PyM RsaKey} (hE : ReadsCerts E imp) {kw : PyDict} {s : String} {rest : List PyVal}
    (h : CertArgs kw s rest "") {e : Bytes} (hs : asciiEncode s = .ok (b64encode e)) {tbs sig : List Bytes}
    (hc : Certificate tbs sig e) (hl : tbs.length ≤ 6) : rsaKeyNew E kw (.val .none) = .error .indexError := by
  rw [rsaDeserialize_cert h, hs]
  simp only [Except.bind, a2b_b64encode, thumbCheck, if_true]
  rw [hE, C126_v1 imp hc hl]

/-! ### Examples -/

/-- Every content has an encoding. -/
theorem tlv_exists (t : UInt8) {c : Bytes} (h : c.length < 256 ^ 126) : ∃ e, Tlv t c e := by
  by_cases h1 : c.length < 128
  · exact ⟨_, [UInt8.ofNat c.length], by
      have : (UInt8.ofNat c.length).toNat = c.length := by rw [UInt8.toNat_ofNat']; omega
      have h2 := DerLength.short (c := UInt8.ofNat c.length) (by omega)
      rwa [this] at h2, rfl⟩
  · have hl := natToBytes_length_le 126 _ h
    have hb := bytesToNat_natToBytes c.length
    refine ⟨_, UInt8.ofNat (128 + (natToBytes c.length).length) :: natToBytes c.length, ?_, rfl⟩
    have h2 := DerLength.long (c := UInt8.ofNat (128 + (natToBytes c.length).length)) (b := natToBytes c.length)
      (by rw [UInt8.toNat_ofNat']; omega) (by intro h; rw [h] at hb; have : bytesToNat [] = 0 := rfl; omega) (natToBytes_head _) (by omega)
    rwa [hb] at h2

/-- A certificate of seven fields: [0] version 3, serial 1, and five sequences, the last one with the content 05 00; no signature. -/
def exTbs : List Bytes := [[0xa0, 3, 2, 1, 2], [2, 1, 1], [0x30, 0], [0x30, 0], [0x30, 0], [0x30, 0], [0x30, 2, 5, 0]]

def exCertDer (tbs : List Bytes) (sig : List Bytes) : Bytes :=
  [0x30, UInt8.ofNat (2 + tbs.flatten.length + sig.flatten.length), 0x30, UInt8.ofNat tbs.flatten.length] ++ tbs.flatten ++ sig.flatten

theorem tlv_short {t : UInt8} {c : Bytes} (h : c.length < 128) : Tlv t c (t :: UInt8.ofNat c.length :: c) := by
  have : (UInt8.ofNat c.length).toNat = c.length := by rw [UInt8.toNat_ofNat']; omega
  have h2 := DerLength.short (c := UInt8.ofNat c.length) (by omega)
  rw [this] at h2
  exact ⟨_, h2, rfl⟩

theorem exCert_is {tbs sig : List Bytes} (h : ∀ i ∈ tbs ++ sig, ∃ t c, Tlv t c i) (hl : 2 + tbs.flatten.length + sig.flatten.length < 128) :
    Certificate tbs sig (exCertDer tbs sig) := by
  have h1 : DerSeq tbs (0x30 :: UInt8.ofNat tbs.flatten.length :: tbs.flatten) :=
    ⟨tlv_short (by omega), fun i hi => h i (by simp [hi])⟩
  refine ⟨_, h1, ?_, ?_⟩
  · have := tlv_short (t := 0x30) (c := ((0x30 :: UInt8.ofNat tbs.flatten.length :: tbs.flatten) :: sig).flatten) (by simp at hl ⊢; omega)
    have e : ((0x30 :: UInt8.ofNat tbs.flatten.length :: tbs.flatten) :: sig).flatten.length = 2 + tbs.flatten.length + sig.flatten.length := by
      simp only [List.flatten_cons, List.length_append, List.length_cons]; omega
    rw [e] at this
    simpa [exCertDer] using this
  · simp only [List.mem_cons, forall_eq_or_imp]
    exact ⟨⟨_, _, h1.1⟩, fun i hi => h i (by simp [hi])⟩

theorem exTbs_items : ∀ i ∈ exTbs, ∃ t c, Tlv t c i := by
  have key : ∀ (t : UInt8) (c : Bytes), c.length < 128 → ∃ t' c', Tlv t' c' (t :: UInt8.ofNat c.length :: c) :=
    fun t c h => ⟨t, c, tlv_short h⟩
  simp only [exTbs, List.mem_cons, List.not_mem_nil, or_false, forall_eq_or_imp, forall_eq]
  exact ⟨key 0xa0 [2, 1, 2] (by decide), key 2 [1] (by decide), key 0x30 [] (by decide), key 0x30 [] (by decide), key 0x30 [] (by decide),
    key 0x30 [] (by decide), key 0x30 [5, 0] (by decide)⟩

example (imp : Bytes → PyM RsaKey) : der2rsa imp (exCertDer exTbs [[3, 1, 0]]) = imp [0x30, 2, 5, 0] :=
  C126_key imp (exCert_is (by
    intro i hi
    rcases List.mem_append.mp hi with h | h
    · exact exTbs_items i h
    · simp at h; subst h; exact ⟨3, [0], tlv_short (c := [0]) (by decide)⟩) (by decide)) rfl rfl

/-- Without the version there are six. -/
example (imp : Bytes → PyM RsaKey) : der2rsa imp (exCertDer (exTbs.drop 1) []) = .error .indexError :=
  C126_v1 imp (exCert_is (by intro i hi; rw [List.append_nil] at hi; exact exTbs_items i (List.mem_of_mem_drop hi)) (by decide)) (by decide)

/-- An environment that reads certificates. -/
def derEnv (imp : Bytes → PyM RsaKey) : Env := { toyEnv with R := { toyRsa with fromCert := der2rsa imp } }

example (imp : Bytes → PyM RsaKey) (r : RsaKey) (h : imp [0x30, 2, 5, 0] = .ok r) (rest : List PyVal) :
    ∃ k m, rsaKeyNew (derEnv imp) [("x5c", .list (.str "MBYwFKADAgECAgEBMAAwADAAMAAwAgUA" :: rest))] (.val .none) = .ok k ∧ k.key = .rsa r ∧
      k.mat = .rsa m ∧ m.n = .int r.n ∧ m.e = .int r.e :=
  C126_x5c (imp := imp) (fun _ => rfl) ⟨rfl, rfl, rfl, rfl, rfl⟩ (e := exCertDer exTbs []) (by decide +kernel)
    (exCert_is (by simpa using exTbs_items) (by decide)) rfl rfl h

end Verif
