import Verif.Props.Jwk
/-
C139: the width of the coordinates in EC JWKs (RFC 7518, sections 6.2.1.2, 6.2.1.3 and 6.2.2.1).
-/

namespace Verif
open Spec

/-- RFC 7518, sections 6.2.1.2, 6.2.1.3 and 6.2.2.1: the base64url text of the big-endian representation of `n` in
exactly `w` octets. -/
def Spec.FixedText (w n : Nat) (s : String) : Prop :=
  ∃ bs, IsB64Url bs (utf8Encode s) ∧ bs.length = w ∧ bytesValue bs = n

theorem bytesValue_lt (b : Bytes) : bytesValue b < 256 ^ b.length := by
  unfold bytesValue
  induction b with
  | nil => simp [beValue]
  | cons a l ih =>
    simp only [List.map_cons, beValue, List.length_map, List.length_cons, Nat.pow_succ] at ih ⊢
    have := a.toNat_lt
    have h2 : a.toNat * 256 ^ l.length ≤ 255 * 256 ^ l.length := Nat.mul_le_mul_right _ (by omega)
    omega

theorem bytesValue_ge {b : Bytes} (hne : b ≠ []) (h : ∀ x ∈ b.head?, x ≠ 0) : 256 ^ (b.length - 1) ≤ bytesValue b := by
  cases b with
  | nil => exact absurd rfl hne
  | cons a l =>
    have h0 : a ≠ 0 := h a rfl
    have h1 : 1 ≤ a.toNat := by
      rcases Nat.eq_zero_or_pos a.toNat with h2 | h2
      · exact absurd (UInt8.toNat_inj.mp (by simpa using h2)) h0
      · exact h2
    simp only [bytesValue, List.map_cons, beValue, List.length_map, List.length_cons, Nat.add_sub_cancel]
    have := Nat.mul_le_mul_right (256 ^ l.length) h1
    omega

/-- The length of such a text: 43, 64 and 88 characters for the three curves. -/
theorem Spec.FixedText.width {w n : Nat} {s : String} (hs : FixedText w n s) : (utf8Encode s).length = (4 * w + 2) / 3 := by
  obtain ⟨b, hb, rfl, -⟩ := hs
  exact isB64Url_length hb

/-- The shortest spelling has the required width exactly if the number needs all its octets. -/
theorem fixed_iff {w n : Nat} {s : String} (hw : 0 < w) (h : UIntText n s) : FixedText w n s ↔ 256 ^ (w - 1) ≤ n ∧ n < 256 ^ w := by
  obtain ⟨bs, hb, hv, h0, hn⟩ := h
  have hne : bs ≠ [] := by
    rintro rfl
    simp [bytesValue, beValue] at hv
    omega
  have l1 := bytesValue_lt bs
  have l2 := bytesValue_ge hne h0
  rw [hv] at l1 l2
  constructor
  · rintro ⟨b2, hb2, hl, hv2⟩
    have e : b2 = bs := C02_injective _ _ ((C02_unique _ _ hb2).symm.trans (C02_unique _ _ hb))
    subst e
    rw [hl] at l1 l2
    exact ⟨l2, l1⟩
  · rintro ⟨g1, g2⟩
    refine ⟨bs, hb, ?_, hv⟩
    have hp : 0 < bs.length := List.length_pos_of_ne_nil hne
    have a1 : bs.length - 1 < w := (Nat.pow_lt_pow_iff_right (by decide : 1 < 256)).mp (lt_of_le_of_lt l2 g2)
    have a2 : w - 1 < bs.length := (Nat.pow_lt_pow_iff_right (by decide : 1 < 256)).mp (lt_of_le_of_lt g1 l1)
    omega

/-- Reading does not mind leading zero octets. -/
theorem deser_fixed {w n : Nat} {s : String} (hw : 0 < w) (h : FixedText w n s) : base64ToLongBytes (utf8Encode s) = .ok n := by
  obtain ⟨bs, hb, hl, hv⟩ := h
  have hl2 := isB64Url_length hb
  have e := C02_unique _ _ hb
  have hd := urlsafeB64decode_shape (utf8Encode s) [] 2 hb.1 (.inl rfl)
  rw [if_pos (by omega)] at hd
  simp only [List.append_nil, List.replicate] at hd
  have hrt := C01_roundtrip bs
  rw [← e, b64d_alpha hb.1, if_neg (by omega)] at hrt
  simp only [Except.ok.injEq] at hrt
  rw [hrt] at hd
  unfold base64ToLongBytes
  rw [hd]
  simp only [Bind.bind, Except.bind]
  rw [intarr2long_eq, ← hv]
  · rfl
  · intro h0
    rw [List.map_eq_nil_iff] at h0
    subst h0
    simp at hl
    omega
  · intro x hx
    obtain ⟨y, -, rfl⟩ := List.mem_map.mp hx
    exact y.toNat_lt

theorem fixed_ne {w n : Nat} {s : String} (hw : 0 < w) (h : FixedText w n s) : s ≠ "" := by
  rintro rfl
  have := h.width
  rw [show (utf8Encode "").length = 0 from rfl] at this
  omega

/-- A JWK of an elliptic curve key as RFC 7518 writes it: the coordinates, and the private number if there is one, in
the full width of the curve. -/
structure Spec.RfcEcJwk (d : PyDict) (c : NistCurve) (X Y : Nat) (D : Option Nat) : Prop where
  kty : PyDict.get? d "kty" = some (.str "EC")
  crv : PyDict.get? d "crv" = some (.str c.name)
  x : ∃ s, PyDict.get? d "x" = some (.str s) ∧ FixedText c.bytes X s
  y : ∃ s, PyDict.get? d "y" = some (.str s) ∧ FixedText c.bytes Y s
  d : match D with
    | none => PyDict.get? d "d" = none
    | some n => ∃ s, PyDict.get? d "d" = some (.str s) ∧ FixedText c.bytes n s

/-- **C139 (out).** The JWK an EC key with positive coordinates gives is as RFC 7518 asks exactly if no number in it
starts with a zero octet: it is written in the shortest form, not in the width of the curve. -/
theorem C139_export (k : Key) (crv x y d : PyVal) (c : NistCurve) (X Y : Nat) (D : Option Nat)
    (hm : k.mat = .ec crv x y d (.curve c)) (hx : Holds x (some X)) (hy : Holds y (some Y)) (hd : Holds d D)
    (hkty : k.kty = .str "EC") (hc : 0 < c.bytes) (hX : X < 256 ^ c.bytes) (hY : Y < 256 ^ c.bytes)
    (hD : ∀ n ∈ D, n < 256 ^ c.bytes) (priv : Bool) :
    ∃ dict, k.serialize priv = .ok (.dict dict) ∧
      (RfcEcJwk dict c X Y (if priv then D else none) ↔
        256 ^ (c.bytes - 1) ≤ X ∧ 256 ^ (c.bytes - 1) ≤ Y ∧ (priv = true → ∀ n ∈ D, 256 ^ (c.bytes - 1) ≤ n)) := by
  have hser := ec_serialize hm hx hy hd priv
  have px : 0 < X := hx.pos _ rfl
  have py : 0 < Y := hy.pos _ rfl
  refine ⟨_, hser, ?_⟩
  have gk : PyDict.get? (ecDict k c X Y (if priv then D else none)) "kty" = some (.str "EC") := by
    simp [ecDict, get?_optSet, PyDict.get?_set, get?_common, hkty]
  have gc : PyDict.get? (ecDict k c X Y (if priv then D else none)) "crv" = some (.str c.name) := by
    simp [ecDict, get?_optSet, PyDict.get?_set]
  have gx : PyDict.get? (ecDict k c X Y (if priv then D else none)) "x" = some (.str (uintTxt X)) := by
    simp [ecDict, get?_optSet, PyDict.get?_set]
  have gy : PyDict.get? (ecDict k c X Y (if priv then D else none)) "y" = some (.str (uintTxt Y)) := by
    simp [ecDict, get?_optSet, PyDict.get?_set]
  have gd : PyDict.get? (ecDict k c X Y (if priv then D else none)) "d" =
      (if priv then D else none).map fun n => .str (uintTxt n) := by
    generalize (if priv then D else none) = D'
    cases D' <;> simp [ecDict, get?_optSet, PyDict.get?_set, get?_common]
  generalize ecDict k c X Y (if priv then D else none) = dict at *
  have ix := fixed_iff hc (uintTxt_spec px).1
  have iy := fixed_iff hc (uintTxt_spec py).1
  constructor
  · rintro ⟨-, -, ⟨sx, ex, fx⟩, ⟨sy, ey, fy⟩, hdd⟩
    rw [gx] at ex; cases ex
    rw [gy] at ey; cases ey
    refine ⟨(ix.mp fx).1, (iy.mp fy).1, ?_⟩
    rintro rfl n hn
    cases hn
    simp only [if_true] at hdd
    obtain ⟨s, es, fs⟩ := hdd
    rw [gd] at es
    cases es
    exact ((fixed_iff hc (uintTxt_spec (hd.pos _ rfl)).1).mp fs).1
  · rintro ⟨g1, g2, g3⟩
    refine ⟨gk, gc, ⟨_, gx, ix.mpr ⟨g1, hX⟩⟩, ⟨_, gy, iy.mpr ⟨g2, hY⟩⟩, ?_⟩
    cases priv with
    | false => simpa using gd
    | true =>
      simp only [if_true] at gd ⊢
      cases D with
      | none => simpa using gd
      | some n => exact ⟨_, gd, (fixed_iff hc (uintTxt_spec (hd.pos _ rfl)).1).mpr ⟨g3 rfl n rfl, hD n rfl⟩⟩

/-- **C139 (in).** A JWK written by the RFC, leading zero octets included, loads to the key with these numbers. -/
theorem C139_import (E : Env) (dict : PyDict) (c : NistCurve) (X Y : Nat) (D : Option Nat) (h : RfcEcJwk dict c X Y D)
    (hc : curveByName c.name = .ok c) (hw : 0 < c.bytes) (hself : PyDict.get? dict "self" = none)
    (hcur : PyDict.get? dict "curve" = none) :
    ∃ k d', keyrep E dict = .ok k ∧ k.mat = .ec (.bytes (utf8Encode c.name)) (.int X) (.int Y) d' (.curve c) ∧
      (D = none → d' = .str "") ∧
      (∀ n, D = some n → ∃ s, FixedText c.bytes n s ∧ d' = .bytes (utf8Encode s)) := by
  obtain ⟨hk, hcrv, ⟨sx, gx, fx⟩, ⟨sy, gy, fy⟩, hd⟩ := h
  have hd' : ∃ dv, kwGet (dict.map fun kv => (kv.1, asBytes kv.2)) "d" (.str "") = dv ∧ (D = none → dv = .str "") ∧
      (∀ n, D = some n → ∃ s, FixedText c.bytes n s ∧ dv = .bytes (utf8Encode s)) := by
    refine ⟨_, kwGet_map _ _ _, ?_⟩
    cases D with
    | none => simp only at hd; simp [hd]
    | some n =>
      simp only at hd
      obtain ⟨s, es, fs⟩ := hd
      refine ⟨fun h => by simp at h, fun m hm => ?_⟩
      cases hm
      exact ⟨s, fs, by simp [es, asBytes]⟩
  obtain ⟨dv, kd, d1, d2⟩ := hd'
  have hdv : (∃ b, dv = .bytes b) ∨ dv = .str "" := by
    cases D with
    | none => exact .inr (d1 rfl)
    | some n => obtain ⟨s, -, e⟩ := d2 n rfl; exact .inl ⟨_, e⟩
  have hgoal : ∃ k, keyrep E dict = .ok k ∧ k.mat = .ec (.bytes (utf8Encode c.name)) (.int X) (.int Y) dv (.curve c) := by
    simp only [keyrep, hk]
    rw [if_neg (by decide +kernel), if_neg (by decide +kernel), if_pos (by rfl)]
    have kx := kwGet_map dict "x" (.str "")
    have ky := kwGet_map dict "y" (.str "")
    have kc := kwGet_map dict "crv" (.str "")
    have kcur := kwGet_map dict "curve" .none
    rw [gx, Option.map_some, Option.getD_some] at kx
    rw [gy, Option.map_some, Option.getD_some] at ky
    rw [hcrv, Option.map_some, Option.getD_some] at kc
    rw [hcur, Option.map_none, Option.getD_none] at kcur
    have ks : PyDict.has (dict.map fun kv => (kv.1, asBytes kv.2)) "self" = false := by
      simp [PyDict.has, get?_map, hself]
    generalize (dict.map fun kv => (kv.1, asBytes kv.2)) = kw at *
    have hn : (PyVal.bytes (utf8Encode c.name)).truthy = true := by
      simpa [PyVal.truthy] using utf8Encode_ne (curveByName_ne hc)
    have hnone : (KObj.val PyVal.none).truthy = false := rfl
    have t1 : (PyVal.bytes (utf8Encode sx)).truthy = true := by
      simpa [PyVal.truthy] using utf8Encode_ne (fixed_ne hw fx)
    have cx : ecCoord (.str sx) = .ok (.int X) := by simp [ecCoord, isInt, deser, deser_fixed hw fx]
    have cy : ecCoord (.bytes (utf8Encode sy)) = .ok (.int Y) := by simp [ecCoord, isInt, deser, deser_fixed hw fy]
    unfold ecKeyNew
    simp only [ks, Bool.false_eq_true, if_false, kx, ky, kc, kd, kcur, asBytes, hn, hnone,
      and_self, if_true, verifyLongs, t1, isInt, listLong, Bool.true_eq_false, decide_false, Bool.or_self,
      Bind.bind, Except.bind, ecDeserialize, utf8Decode_encode, Except.map, cx, cy, curveByVal, curveByName_b hc]
    obtain ⟨b, rfl⟩ | rfl := hdv
    · by_cases hb : (PyVal.bytes b).truthy = true
      · simp only [hb, if_true]
        exact ⟨_, rfl, rfl⟩
      · simp only [hb]
        exact ⟨_, rfl, rfl⟩
    · exact ⟨_, rfl, rfl⟩
  obtain ⟨k, e1, e2⟩ := hgoal
  exact ⟨k, dv, e1, e2, d1, d2⟩

/-- **C139 (there and back).** Loaded and written again, such a JWK changes exactly if one of its numbers starts with
a zero octet. -/
theorem C139_rewrite (E : Env) (dict : PyDict) (c : NistCurve) (X Y : Nat) (h : RfcEcJwk dict c X Y none)
    (hc : curveByName c.name = .ok c) (hw : 0 < c.bytes) (hX : 0 < X) (hY : 0 < Y) (hself : PyDict.get? dict "self" = none)
    (hcur : PyDict.get? dict "curve" = none) :
    ∃ k out, keyrep E dict = .ok k ∧ k.serialize false = .ok (.dict out) ∧
      (PyDict.get? out "x" = PyDict.get? dict "x" ↔ 256 ^ (c.bytes - 1) ≤ X) ∧
      (PyDict.get? out "y" = PyDict.get? dict "y" ↔ 256 ^ (c.bytes - 1) ≤ Y) ∧
      PyDict.get? out "crv" = PyDict.get? dict "crv" := by
  obtain ⟨k, d', hk, hm, hd, -⟩ := C139_import E dict c X Y none h hc hw hself hcur
  have hser := ec_serialize hm (.number hX) (.number hY) (D := none) (.absent (by rw [hd rfl]; rfl)) false
  refine ⟨k, _, hk, hser, ?_, ?_, ?_⟩
  · obtain ⟨s, gs, fs⟩ := h.x
    have lt : X < 256 ^ c.bytes := by obtain ⟨b, -, hl, rfl⟩ := fs; rw [← hl]; exact bytesValue_lt b
    have i := fixed_iff hw (uintTxt_spec hX).1
    have g : PyDict.get? (ecDict k c X Y (if false then none else none)) "x" = some (.str (uintTxt X)) := by
      simp [ecDict, get?_optSet, PyDict.get?_set]
    rw [gs]
    constructor
    · intro e
      have e2 := g.symm.trans e
      simp only [Option.some.injEq, PyVal.str.injEq] at e2
      rw [e2] at i
      exact (i.mp fs).1
    · intro hge
      obtain ⟨b1, hb1, l1, v1⟩ := i.mpr ⟨hge, lt⟩
      obtain ⟨b2, hb2, l2, v2⟩ := fs
      have nz : ∀ (b : Bytes), b.length = c.bytes → bytesValue b = X → ∀ x ∈ b.head?, x ≠ 0 := by
        intro b hl hv x hx h0
        cases b with
        | nil => simp at hx
        | cons a l =>
          simp only [List.head?_cons, Option.mem_def, Option.some.injEq] at hx
          subst hx
          subst h0
          have := bytesValue_lt l
          have e : bytesValue ((0 : UInt8) :: l) = bytesValue l := by simp [bytesValue, beValue]
          simp only [List.length_cons] at hl
          have : c.bytes - 1 = l.length := by omega
          rw [this] at hge
          omega
      have eb : b1 = b2 := bytesValue_inj (v1.trans v2.symm) (nz b1 l1 v1) (nz b2 l2 v2)
      subst eb
      rw [utf8Encode_inj ((C02_unique _ _ hb2).trans (C02_unique _ _ hb1).symm)]
      exact g
  · obtain ⟨s, gs, fs⟩ := h.y
    have lt : Y < 256 ^ c.bytes := by obtain ⟨b, -, hl, rfl⟩ := fs; rw [← hl]; exact bytesValue_lt b
    have i := fixed_iff hw (uintTxt_spec hY).1
    have g : PyDict.get? (ecDict k c X Y (if false then none else none)) "y" = some (.str (uintTxt Y)) := by
      simp [ecDict, get?_optSet, PyDict.get?_set]
    rw [gs]
    constructor
    · intro e
      have e2 := g.symm.trans e
      simp only [Option.some.injEq, PyVal.str.injEq] at e2
      rw [e2] at i
      exact (i.mp fs).1
    · intro hge
      obtain ⟨b1, hb1, l1, v1⟩ := i.mpr ⟨hge, lt⟩
      obtain ⟨b2, hb2, l2, v2⟩ := fs
      have nz : ∀ (b : Bytes), b.length = c.bytes → bytesValue b = Y → ∀ x ∈ b.head?, x ≠ 0 := by
        intro b hl hv x hx h0
        cases b with
        | nil => simp at hx
        | cons a l =>
          simp only [List.head?_cons, Option.mem_def, Option.some.injEq] at hx
          subst hx
          subst h0
          have := bytesValue_lt l
          have e : bytesValue ((0 : UInt8) :: l) = bytesValue l := by simp [bytesValue, beValue]
          simp only [List.length_cons] at hl
          have : c.bytes - 1 = l.length := by omega
          rw [this] at hge
          omega
      have eb : b1 = b2 := bytesValue_inj (v1.trans v2.symm) (nz b1 l1 v1) (nz b2 l2 v2)
      subst eb
      rw [utf8Encode_inj ((C02_unique _ _ hb2).trans (C02_unique _ _ hb1).symm)]
      exact g
  · rw [h.crv]
    simp [ecDict, get?_optSet, PyDict.get?_set]

/-! The private key 1 with the generator of P-256: the public JWK is as the RFC asks, the private one is not (its `d`
is "AQ" where 43 characters are due). -/
example : (∃ dict, exEc.serialize false = .ok (.dict dict) ∧ RfcEcJwk dict P256 P256.G.1.toNat P256.G.2.toNat none) ∧
    ∃ dict, exEc.serialize true = .ok (.dict dict) ∧ ¬ RfcEcJwk dict P256 P256.G.1.toNat P256.G.2.toNat (some 1) := by
  have hx : Holds (.int (P256.G.1.toNat : Nat)) (some P256.G.1.toNat) := .number (by decide +kernel)
  have hy : Holds (.int (P256.G.2.toNat : Nat)) (some P256.G.2.toNat) := .number (by decide +kernel)
  have hd : Holds (.int (1 : Nat)) (some 1) := .number (by decide)
  have hD : ∀ n ∈ (some 1 : Option Nat), n < 256 ^ P256.bytes := by
    intro n hn; cases hn; decide +kernel
  constructor
  · obtain ⟨dict, e, h⟩ := C139_export exEc _ _ _ _ P256 _ _ _ rfl hx hy hd rfl (by decide +kernel) (by decide +kernel)
      (by decide +kernel) hD false
    exact ⟨dict, e, h.mpr ⟨by decide +kernel, by decide +kernel, fun h => by simp at h⟩⟩
  · obtain ⟨dict, e, h⟩ := C139_export exEc _ _ _ _ P256 _ _ _ rfl hx hy hd rfl (by decide +kernel) (by decide +kernel)
      (by decide +kernel) hD true
    refine ⟨dict, e, fun hr => ?_⟩
    have := (h.mp hr).2.2 rfl 1 rfl
    revert this
    decide +kernel

/-- A coordinate in the full width of P-256 that starts with a zero octet. -/
def zeroX : Bytes := 0 :: List.replicate 31 7

def zeroJwk : PyDict :=
  [("kty", .str "EC"), ("crv", .str "P-256"), ("x", .str "AAcHBwcHBwcHBwcHBwcHBwcHBwcHBwcHBwcHBwcHBwc"),
   ("y", .str "AAcHBwcHBwcHBwcHBwcHBwcHBwcHBwcHBwcHBwcHBwc")]

example : ∃ k out, keyrep toyEnv zeroJwk = .ok k ∧ k.serialize false = .ok (.dict out) ∧
    PyDict.get? out "x" ≠ PyDict.get? zeroJwk "x" := by
  have hf : FixedText P256.bytes (bytesValue zeroX) "AAcHBwcHBwcHBwcHBwcHBwcHBwcHBwcHBwcHBwcHBwc" := by
    refine ⟨zeroX, ?_, by decide +kernel, rfl⟩
    have : utf8Encode "AAcHBwcHBwcHBwcHBwcHBwcHBwcHBwcHBwcHBwcHBwc" = b64e zeroX := by decide +kernel
    rw [this]
    exact C02_rfc4648 _
  have h : RfcEcJwk zeroJwk P256 (bytesValue zeroX) (bytesValue zeroX) none :=
    ⟨rfl, rfl, ⟨_, rfl, hf⟩, ⟨_, rfl, hf⟩, rfl⟩
  obtain ⟨k, out, h1, h2, h3, -⟩ := C139_rewrite toyEnv zeroJwk P256 _ _ h (by decide +kernel) (by decide +kernel)
    (by decide +kernel) (by decide +kernel) rfl rfl
  refine ⟨k, out, h1, h2, fun e => ?_⟩
  have := h3.mp e
  revert this
  decide +kernel

end Verif
