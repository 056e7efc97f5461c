import Verif.Props.Ec
import Verif.Model.Ecc
import Verif.Spec.Ecdsa
import Verif.Proofs.LongBytes
/-
Properties C52–C54, C56: ECDSA and ECDH on a sound curve (`/repo/src/jwkest/ecc.py`).  That the
shipped curves are sound is `Props/Curves`.
-/

namespace Verif
open WeierstrassCurve.Affine Spec

/-- What the parameters must satisfy (C55 proves it of the shipped curves). -/
structure SoundCurve (C : NistCurve) : Prop where
  p_prime : C.p.Prime
  N_prime : C.N.Prime
  two_torsion : ∀ [Fact C.p.Prime], NoTwoTorsion C.p C.a C.b
  base : ∀ [Fact C.p.Prime], ∃ G : (ecurve C.p C.a C.b).Point, Rep (some C.G) G ∧ C.N • G = 0
  p_fits : C.p ≤ 256 ^ C.bytes
  N_fits : C.N ≤ 256 ^ C.bytes
  bytes_pos : 0 < C.bytes

section
variable {n : ℕ} [hn : Fact n.Prime] {p q : ℤ}

theorem fromProjective_range {jp : JPt} {x y : ℤ} (h : fromProjective jp n = some (x, y)) :
    0 ≤ x ∧ x < n ∧ 0 ≤ y ∧ y < n := by
  have hpos : (0 : ℤ) < n := by exact_mod_cast hn.out.pos
  cases jp with
  | none => simp [fromProjective] at h
  | some a =>
    obtain ⟨X, Y, Z, Zs, Zc⟩ := a
    simp only [fromProjective, Option.some.injEq, Prod.mk.injEq] at h
    obtain ⟨rfl, rfl⟩ := h
    exact ⟨Int.fmod_nonneg_of_pos _ hpos, Int.fmod_lt_of_pos _ hpos,
      Int.fmod_nonneg_of_pos _ hpos, Int.fmod_lt_of_pos _ hpos⟩

theorem int_eq_of_cast {x y : ℤ} (hx : 0 ≤ x) (hx' : x < n) (hy : 0 ≤ y) (hy' : y < n)
    (h : (x : ZMod n) = y) : x = y := by
  have := (ZMod.intCast_eq_intCast_iff' x y n).mp h
  rwa [Int.emod_eq_of_lt hx hx', Int.emod_eq_of_lt hy hy'] at this

/-- Results of the fast functions are determined by the group element. -/
theorem fromProjective_inj {j1 j2 : JPt} {P : (ecurve n p q).Point}
    (h1 : Rep (fromProjective j1 n) P) (h2 : Rep (fromProjective j2 n) P) :
    fromProjective j1 n = fromProjective j2 n := by
  cases e1 : fromProjective j1 n with
  | none =>
    rw [e1] at h1
    have h1 : P = 0 := h1
    subst h1
    cases e2 : fromProjective j2 n with
    | none => rfl
    | some b =>
      rw [e2] at h2
      obtain ⟨hh, h2⟩ := h2
      exact absurd h2.symm (Point.some_ne_zero hh)
  | some a =>
    rw [e1] at h1
    obtain ⟨hh1, h1⟩ := h1
    cases e2 : fromProjective j2 n with
    | none =>
      rw [e2] at h2
      have h2 : P = 0 := h2
      exact absurd (h1.symm.trans h2) (Point.some_ne_zero hh1)
    | some b =>
      rw [e2] at h2
      obtain ⟨hh2, h2⟩ := h2
      rw [h1] at h2
      injection h2 with hx hy
      obtain ⟨a1, a2, a3, a4⟩ := fromProjective_range e1
      obtain ⟨b1, b2, b3, b4⟩ := fromProjective_range e2
      rw [Option.some.injEq, Prod.ext_iff]
      exact ⟨int_eq_of_cast a1 a2 b1 b2 hx, int_eq_of_cast a3 a4 b3 b4 hy⟩

theorem val_cast_eq {x : ℤ} (hx : 0 ≤ x) (hx' : x < n) : ((x : ZMod n).val : ℤ) = x := by
  rw [ZMod.val_intCast, Int.emod_eq_of_lt hx hx']

end

section
variable {N : ℕ} {A : Type*} [AddCommGroup A]

/-- Scalars of an element killed by `N` only matter modulo `N`. -/
theorem nsmul_congr {G : A} (hG : N • G = 0) {a b : ℕ} (h : (a : ZMod N) = b) : a • G = b • G := by
  rw [ZMod.natCast_eq_natCast_iff] at h
  have hm : ∀ a : ℕ, a • G = (a % N) • G := by
    intro a
    conv_lhs => rw [← Nat.div_add_mod a N]
    rw [add_nsmul, mul_comm, mul_nsmul', hG, nsmul_zero, zero_add]
  rw [hm a, hm b, h]

end

theorem toNat_fmod_cast (N : ℕ) (hN : 0 < N) (a : ℤ) :
    ((a.fmod N).toNat : ZMod N) = (a : ZMod N) ∧ (a.fmod N).toNat < N ∧
      ((a.fmod N).toNat = (a : ZMod N).val) := by
  have hpos : (0 : ℤ) < N := by exact_mod_cast hN
  have h0 := Int.fmod_nonneg_of_pos a hpos
  have h1 := Int.fmod_lt_of_pos a hpos
  have hlt : (a.fmod N).toNat < N := by omega
  have hc : ((a.fmod N).toNat : ZMod N) = (a : ZMod N) := by
    have : (((a.fmod N).toNat : ℤ) : ZMod N) = ((a.fmod N : ℤ) : ZMod N) := by
      rw [Int.toNat_of_nonneg h0]
    rwa [cast_fmod, Int.cast_natCast] at this
  refine ⟨hc, hlt, ?_⟩
  rw [← hc, ZMod.val_natCast, Nat.mod_eq_of_lt hlt]

namespace NistCurve
variable {C : NistCurve}

/-! ### C53 -/

/-- C53: on a public key on the curve, `verify` is exactly the ECDSA equation: it returns True iff
the signature is valid for the shortened hash, it raises TypeError iff the point computed is the
neutral element, and returns False in all other cases. -/
theorem C53_verify (hC : SoundCurve C) [Fact C.p.Prime] (G Q : (ecurve C.p C.a C.b).Point)
    (hG : Rep (some C.G) G) (pub : EPt) (hQ : Rep pub Q) (h : ℕ) (sig : Bytes) :
    let r := bytesToNat (sig.take C.bytes)
    let s := bytesToNat (sig.drop C.bytes)
    let h' := shrink C.N h
    (C.verify h sig pub = .ok true ↔ EcdsaValid (ecurve C.p C.a C.b) C.N G Q h' r s) ∧
    (C.verify h sig pub = .error .typeError ↔ (0 < r ∧ r < C.N) ∧ (0 < s ∧ s < C.N) ∧
      ((h' : ZMod C.N) * (s : ZMod C.N)⁻¹).val • G + ((r : ZMod C.N) * (s : ZMod C.N)⁻¹).val • Q = 0) ∧
    (C.verify h sig pub = .ok true ∨ C.verify h sig pub = .error .typeError ∨
      C.verify h sig pub = .ok false) := by
  intro r s h'
  have hNf : Fact C.N.Prime := ⟨hC.N_prime⟩
  have hN0 := hC.N_prime.pos
  have hv : C.verify h sig pub = if (0 < r ∧ r < C.N) ∧ (0 < s ∧ s < C.N) then
      match muladdp C.a C.b C.p (some C.G) ((h' * inv s C.N).fmod C.N).toNat pub
        ((r * inv s C.N).fmod C.N).toNat with
      | none => .error .typeError
      | some (x, _) => .ok ((r : Int).fmod C.N == x.fmod C.N)
    else .ok false := rfl
  rw [hv]
  by_cases hr : (0 < r ∧ r < C.N) ∧ (0 < s ∧ s < C.N)
  · simp only [if_pos hr]
    have hs0 : ((s : ℤ) : ZMod C.N) ≠ 0 := by
      rw [Int.cast_natCast, Ne, ZMod.natCast_eq_zero_iff]
      exact fun hd => absurd (Nat.le_of_dvd hr.2.1 hd) (by omega)
    have hw : ((inv s C.N : ℤ) : ZMod C.N) = (s : ZMod C.N)⁻¹ := by
      rw [cast_inv _ hs0, Int.cast_natCast]
    have e1 := (toNat_fmod_cast C.N hN0 (h' * inv s C.N)).2.2
    have e2 := (toNat_fmod_cast C.N hN0 (r * inv s C.N)).2.2
    rw [Int.cast_mul, hw, Int.cast_natCast] at e1 e2
    rw [e1, e2]
    have hrep := C51_muladdp hC.two_torsion _ _ G Q ((h' : ZMod C.N) * (s : ZMod C.N)⁻¹).val
      ((r : ZMod C.N) * (s : ZMod C.N)⁻¹).val hG hQ
    cases hm : muladdp C.a C.b C.p (some C.G) ((h' : ZMod C.N) * (s : ZMod C.N)⁻¹).val pub
      ((r : ZMod C.N) * (s : ZMod C.N)⁻¹).val with
    | none =>
      rw [hm] at hrep
      have hrep : _ = (0 : (ecurve C.p C.a C.b).Point) := hrep
      refine ⟨?_, ?_, .inr (.inl rfl)⟩
      · constructor
        · intro h; simp at h
        · rintro ⟨_, _, _, _, x, y, hns, he, _⟩
          exact absurd (he.symm.trans hrep) (Point.some_ne_zero hns)
      · exact ⟨fun _ => ⟨hr.1, hr.2, hrep⟩, fun _ => rfl⟩
    | some a =>
      obtain ⟨x, y⟩ := a
      rw [hm] at hrep
      obtain ⟨hns, he⟩ := hrep
      obtain ⟨x0, x1, _, _⟩ := fromProjective_range hm
      have hval : ((x : ZMod C.p).val : ℤ) = x := val_cast_eq x0 x1
      have hiff : ((r : ℤ).fmod C.N = x.fmod C.N) ↔ (x : ZMod C.p).val % C.N = r := by
        generalize (x : ZMod C.p).val = m at hval
        subst hval
        rw [Int.fmod_eq_emod_of_nonneg _ (by omega), Int.fmod_eq_emod_of_nonneg _ (by omega),
          ← Int.natCast_mod, ← Int.natCast_mod, Nat.mod_eq_of_lt hr.1.2]
        constructor <;> intro h <;> exact_mod_cast h.symm
      refine ⟨?_, ?_, ?_⟩
      · simp only [Except.ok.injEq, beq_iff_eq]
        rw [hiff]
        constructor
        · intro h
          exact ⟨hr.1.1, hr.1.2, hr.2.1, hr.2.2, _, _, hns, he, h⟩
        · rintro ⟨_, _, _, _, x', y', hns', he', h⟩
          rw [he] at he'
          injection he' with hx _
          rw [hx]; exact h
      · constructor
        · intro h; simp at h
        · rintro ⟨_, _, h⟩
          exact absurd (he.symm.trans h) (Point.some_ne_zero hns)
      · simp only [Except.ok.injEq]
        cases (r : ℤ).fmod C.N == x.fmod C.N
        · simp
        · simp
  · simp only [if_neg hr]
    refine ⟨?_, ?_, by simp⟩
    · constructor
      · intro h; simp at h
      · rintro ⟨a, b, c, d, _⟩
        exact absurd ⟨⟨a, b⟩, c, d⟩ hr
    · constructor
      · intro h; simp at h
      · rintro ⟨a, b, _⟩
        exact absurd ⟨a, b⟩ hr

/-! ### C52 -/

/-- One round of the loop decides: a result within two rounds, or no result ever. -/
theorem signLoop_cases (h priv rnd : ℕ) (k : Option ℕ) :
    (∃ e, ∀ fuel, C.signLoop h priv rnd (fuel + 1) 0 0 k = some (.error e)) ∨
    (∃ x y r s, mulp C.a C.b C.p (some C.G) (k.getD (rnd % (C.N - 1) + 1)) = some (x, y) ∧
      r = (x.fmod C.N).toNat ∧
      s = ((inv (k.getD (rnd % (C.N - 1) + 1) : ℕ) C.N * (h + r * priv : ℕ)).fmod C.N).toNat ∧
      r ≠ 0 ∧ s ≠ 0 ∧ ∀ fuel, C.signLoop h priv rnd (fuel + 2) 0 0 k = some (.ok (r, s))) ∨
    ∀ fuel, C.signLoop h priv rnd fuel 0 0 k = none := by
  cases hm : mulp C.a C.b C.p (some C.G) (k.getD (rnd % (C.N - 1) + 1)) with
  | none =>
    left
    refine ⟨.typeError, fun fuel => ?_⟩
    rw [signLoop, if_pos (.inl rfl)]
    simp only [hm]
  | some a =>
    obtain ⟨x, y⟩ := a
    right
    by_cases hr : (x.fmod C.N).toNat = 0
    · right
      have stuck : ∀ fuel r s k', (r = 0 ∨ s = 0) →
          k'.getD (rnd % (C.N - 1) + 1) = k.getD (rnd % (C.N - 1) + 1) →
          C.signLoop h priv rnd fuel r s k' = none := by
        intro fuel
        induction fuel with
        | zero => intros; rfl
        | succ f ih =>
          intro r s k' h0 hk
          rw [signLoop, if_pos h0]
          simp only [hk, hm, if_pos hr]
          exact ih _ _ _ (.inl hr) rfl
      exact fun fuel => stuck fuel 0 0 k (.inl rfl) rfl
    · by_cases hs : ((inv (k.getD (rnd % (C.N - 1) + 1) : ℕ) C.N *
          (h + (x.fmod C.N).toNat * priv : ℕ)).fmod C.N).toNat = 0
      · right
        have stuck : ∀ fuel r s k', (r = 0 ∨ s = 0) →
            k'.getD (rnd % (C.N - 1) + 1) = k.getD (rnd % (C.N - 1) + 1) →
            C.signLoop h priv rnd fuel r s k' = none := by
          intro fuel
          induction fuel with
          | zero => intros; rfl
          | succ f ih =>
            intro r s k' h0 hk
            rw [signLoop, if_pos h0]
            simp only [hk, hm, if_neg hr]
            exact ih _ _ _ (.inr hs) rfl
        exact fun fuel => stuck fuel 0 0 k (.inl rfl) rfl
      · left
        refine ⟨x, y, _, _, rfl, rfl, rfl, hr, hs, fun fuel => ?_⟩
        rw [signLoop, if_pos (.inl rfl)]
        simp only [hm, if_neg hr]
        rw [signLoop, if_neg (fun h => h.elim hr hs)]

theorem shrink_le (N h : ℕ) : shrink N h ≤ N := by
  fun_induction shrink N h with
  | case1 h _ ih => exact ih
  | case2 h hc => omega

/-- C52: whatever hash, private key and nonce, if `sign` returns a signature then `verify` accepts
it under the matching public key; the signature is `2 * bytes` long. -/
theorem C52_roundtrip (hC : SoundCurve C) (fuel h priv : ℕ) (k : Option ℕ) (rnd : ℕ) (sig : Bytes)
    (hs : C.sign fuel h priv k rnd = some (.ok sig)) :
    C.verify h sig (C.publicKeyFor priv) = .ok true ∧ sig.length = 2 * C.bytes := by
  have : Fact C.p.Prime := ⟨hC.p_prime⟩
  have : Fact C.N.Prime := ⟨hC.N_prime⟩
  have hN0 := hC.N_prime.pos
  obtain ⟨G, hG, hNG⟩ := hC.base
  unfold sign at hs
  generalize hh : shrink C.N h = h' at hs
  rcases signLoop_cases (C := C) h' priv rnd k with ⟨e, he⟩ | ⟨x, y, r, s, hm, hr, hs', hr0, hs0, hok⟩ | hnone
  · cases fuel with
    | zero => simp [signLoop] at hs
    | succ f => rw [he f] at hs; simp at hs
  · have hsig : sig = C.int2bytes r ++ C.int2bytes s := by
      match fuel with
      | 0 => simp [signLoop] at hs
      | 1 =>
        rw [signLoop, if_pos (.inl rfl)] at hs
        simp only [hm] at hs
        rw [← hr, if_neg hr0] at hs
        simp [signLoop] at hs
      | f + 2 =>
        rw [hok f] at hs
        simpa using hs.symm
    generalize hk : k.getD (rnd % (C.N - 1) + 1) = k' at hm hs'
    obtain ⟨rc, rlt, _⟩ := toNat_fmod_cast C.N hN0 x
    rw [← hr] at rc rlt
    obtain ⟨sc, slt, _⟩ := toNat_fmod_cast C.N hN0 (inv k' C.N * (h' + r * priv : ℕ))
    rw [← hs'] at sc slt
    have lr := longToBytes_length r C.bytes hC.bytes_pos (lt_of_lt_of_le rlt hC.N_fits)
    have ls := longToBytes_length s C.bytes hC.bytes_pos (lt_of_lt_of_le slt hC.N_fits)
    refine ⟨?_, by rw [hsig, List.length_append]; unfold int2bytes; omega⟩
    have hPub := C51_mulp hC.two_torsion (some C.G) G priv hG
    unfold publicKeyFor
    rw [(C53_verify hC G (priv • G) hG _ hPub h sig).1, hh, hsig]
    unfold int2bytes
    rw [List.take_left' lr, List.drop_left' lr, bytesToNat_longToBytes, bytesToNat_longToBytes]
    have hKG := C51_mulp hC.two_torsion (some C.G) G k' hG
    rw [hm] at hKG
    obtain ⟨hns, hKG⟩ := hKG
    obtain ⟨x0, x1, _, _⟩ := fromProjective_range hm
    refine ⟨Nat.pos_of_ne_zero hr0, rlt, Nat.pos_of_ne_zero hs0, slt, _, _, hns, ?_, ?_⟩
    · rw [← hKG, smul_smul, ← add_nsmul]
      apply nsmul_congr hNG
      push_cast
      rw [ZMod.natCast_zmod_val, ZMod.natCast_zmod_val]
      have hk0 : ((k' : ℤ) : ZMod C.N) ≠ 0 := by
        intro h0
        have : k' • G = 0 := by
          have := nsmul_congr hNG (a := k') (b := 0) (by simpa using h0)
          rwa [zero_nsmul] at this
        exact Point.some_ne_zero hns (hKG.symm.trans this)
      have hs0' : (s : ZMod C.N) ≠ 0 := by
        rw [Ne, ZMod.natCast_eq_zero_iff]
        exact fun hd => absurd (Nat.le_of_dvd (Nat.pos_of_ne_zero hs0) hd) (by omega)
      have hsk : (s : ZMod C.N) * k' = h' + r * priv := by
        rw [sc]
        push_cast
        rw [cast_inv _ hk0]
        push_cast at hk0 ⊢
        field_simp
      field_simp
      linear_combination -hsk
    · have hval : ((x : ZMod C.p).val : ℤ) = x := val_cast_eq x0 x1
      generalize (x : ZMod C.p).val = m at hval
      subst hval
      rw [hr, Int.fmod_eq_emod_of_nonneg _ (by omega), ← Int.natCast_mod, Int.toNat_natCast]
  · rw [hnone fuel] at hs; simp at hs

/-- C52: `sign` either returns within two rounds of its loop, or raises at once, or never returns
(the nonce is not redrawn when it gives `r = 0` or `s = 0`). -/
theorem C52_termination (h priv : ℕ) (k : Option ℕ) (rnd : ℕ) :
    (∃ res, ∀ fuel, C.sign (fuel + 2) h priv k rnd = some res) ∨
    ∀ fuel, C.sign fuel h priv k rnd = none := by
  unfold sign
  rcases signLoop_cases (C := C) (shrink C.N h) priv rnd k with ⟨e, he⟩ | ⟨_, _, r, s, _, _, _, _, _, hok⟩ | hnone
  · exact .inl ⟨.error e, fun fuel => by rw [he (fuel + 1)]⟩
  · exact .inl ⟨_, fun fuel => by rw [hok fuel]⟩
  · exact .inr fun fuel => by rw [hnone fuel]

/-! ### C54, C56 -/

/-- C54: both parties compute the same shared secret (or both fail, when a private key is a
multiple of the order); the secret has the curve's fixed length. -/
theorem C54_agreement (hC : SoundCurve C) (a b : ℕ) :
    C.dhZ a (C.publicKeyFor b) = C.dhZ b (C.publicKeyFor a) ∧
    ∀ z, C.dhZ a (C.publicKeyFor b) = .ok z → z.length = C.bytes := by
  have : Fact C.p.Prime := ⟨hC.p_prime⟩
  obtain ⟨G, hG, hNG⟩ := hC.base
  have h1 := C51_mulp hC.two_torsion _ _ a (C51_mulp hC.two_torsion (some C.G) G b hG)
  have h2 := C51_mulp hC.two_torsion _ _ b (C51_mulp hC.two_torsion (some C.G) G a hG)
  rw [smul_smul] at h1 h2
  rw [mul_comm] at h2
  constructor
  · unfold dhZ publicKeyFor
    rw [show mulp C.a C.b C.p (mulp C.a C.b C.p (some C.G) b) a =
      mulp C.a C.b C.p (mulp C.a C.b C.p (some C.G) a) b from fromProjective_inj h1 h2]
  · intro z hz
    unfold dhZ at hz
    split at hz
    · rename_i x y hm
      obtain ⟨x0, x1, _, _⟩ := fromProjective_range hm
      simp only [Except.ok.injEq] at hz
      rw [← hz]
      exact longToBytes_length _ _ hC.bytes_pos (lt_of_lt_of_le (by omega) hC.p_fits)
    · simp at hz

/-- C54: the secret is the first coordinate of the multiple of the peer's point, as a big-endian
number of the curve's fixed length (RFC 7518 section 4.6.2, SEC 1); TypeError at the neutral element. -/
theorem C54_secret (hC : SoundCurve C) [Fact C.p.Prime] (pub : EPt) (Q : (ecurve C.p C.a C.b).Point)
    (hQ : Rep pub Q) (a : ℕ) :
    (a • Q = 0 → C.dhZ a pub = .error .typeError) ∧
    ∀ x y h, a • Q = .some x y h → ∃ z, C.dhZ a pub = .ok z ∧ bytesToNat z = x.val ∧
      z.length = C.bytes := by
  have h1 := C51_mulp hC.two_torsion pub Q a hQ
  unfold dhZ
  cases hm : mulp C.a C.b C.p pub a with
  | none =>
    rw [hm] at h1
    have h1 : a • Q = 0 := h1
    exact ⟨fun _ => rfl, fun x y h hx => absurd (hx.symm.trans h1) (Point.some_ne_zero h)⟩
  | some w =>
    obtain ⟨x, y⟩ := w
    rw [hm] at h1
    obtain ⟨hns, he⟩ := h1
    obtain ⟨x0, x1, _, _⟩ := fromProjective_range hm
    refine ⟨fun h => absurd (he.symm.trans h) (Point.some_ne_zero hns), fun x' y' h' hx => ?_⟩
    refine ⟨_, rfl, ?_, longToBytes_length _ _ hC.bytes_pos (lt_of_lt_of_le (by omega) hC.p_fits)⟩
    rw [he] at hx
    injection hx with hx _
    have hval : ((x : ZMod C.p).val : ℤ) = x := val_cast_eq x0 x1
    rw [int2bytes, bytesToNat_longToBytes, ← hx]
    omega

/-- C54: for private keys in range the exchange succeeds. -/
theorem C54_succeeds (hC : SoundCurve C) (a b : ℕ) (ha : 0 < a ∧ a < C.N) (hb : 0 < b ∧ b < C.N) :
    ∃ z, C.dhZ a (C.publicKeyFor b) = .ok z := by
  have : Fact C.p.Prime := ⟨hC.p_prime⟩
  have : Fact C.N.Prime := ⟨hC.N_prime⟩
  obtain ⟨G, hG, hNG⟩ := hC.base
  have h1 := C51_mulp hC.two_torsion _ _ a (C51_mulp hC.two_torsion (some C.G) G b hG)
  rw [smul_smul] at h1
  unfold dhZ publicKeyFor
  cases hm : mulp C.a C.b C.p (mulp C.a C.b C.p (some C.G) b) a with
  | some xy => exact ⟨_, rfl⟩
  | none =>
    rw [hm] at h1
    have h1 : (a * b) • G = 0 := h1
    have hG0 : G ≠ 0 := by
      intro h
      obtain ⟨hh, hG⟩ := hG
      exact Point.some_ne_zero hh (hG.symm.trans h)
    have hord : addOrderOf G = C.N := addOrderOf_eq_prime hNG hG0
    have hd := addOrderOf_dvd_of_nsmul_eq_zero h1
    rw [hord, hC.N_prime.dvd_mul] at hd
    rcases hd with hd | hd
    · exact absurd (Nat.le_of_dvd ha.1 hd) (by omega)
    · exact absurd (Nat.le_of_dvd hb.1 hd) (by omega)

/-- C56: a generated private key is in `1 .. N-1` and its public key is a pair of coordinates in
`[0, p)` on the curve. -/
theorem C56_key_pair (hC : SoundCurve C) (rnd : ℕ) :
    0 < (C.keyPair rnd).1 ∧ (C.keyPair rnd).1 < C.N ∧
    (C.keyPair rnd).2 = C.publicKeyFor (C.keyPair rnd).1 ∧
    ∃ x y : ℤ, (C.keyPair rnd).2 = some (x, y) ∧ 0 ≤ x ∧ x < C.p ∧ 0 ≤ y ∧ y < C.p ∧
      element (some (x, y)) C.a C.b C.p = true := by
  have : Fact C.p.Prime := ⟨hC.p_prime⟩
  have h2 := hC.N_prime.two_le
  obtain ⟨G, hG, hNG⟩ := hC.base
  have hlt : rnd % (C.N - 1) + 1 < C.N := by
    rcases Nat.lt_or_ge 1 (C.N - 1) with h | h
    · have := Nat.mod_lt rnd (show 0 < C.N - 1 by omega); omega
    · rw [show C.N - 1 = 1 by omega, Nat.mod_one]; omega
  refine ⟨by simp [keyPair], hlt, rfl, ?_⟩
  have hrep := C51_mulp hC.two_torsion (some C.G) G (rnd % (C.N - 1) + 1) hG
  unfold keyPair
  simp only
  cases hm : mulp C.a C.b C.p (some C.G) (rnd % (C.N - 1) + 1) with
  | none =>
    rw [hm] at hrep
    have h1 : (rnd % (C.N - 1) + 1) • G = 0 := hrep
    have hG0 : G ≠ 0 := by
      intro h
      obtain ⟨hh, hG⟩ := hG
      exact Point.some_ne_zero hh (hG.symm.trans h)
    have : Fact C.N.Prime := ⟨hC.N_prime⟩
    have hord : addOrderOf G = C.N := addOrderOf_eq_prime hNG hG0
    have hd := addOrderOf_dvd_of_nsmul_eq_zero h1
    rw [hord] at hd
    exact absurd (Nat.le_of_dvd (by omega) hd) (by omega)
  | some a =>
    obtain ⟨x, y⟩ := a
    rw [hm] at hrep
    obtain ⟨hh, _⟩ := hrep
    obtain ⟨x0, x1, y0, y1⟩ := fromProjective_range hm
    exact ⟨x, y, rfl, x0, x1, y0, y1, (C49_element x y).mpr hh.1⟩

end NistCurve
end Verif
