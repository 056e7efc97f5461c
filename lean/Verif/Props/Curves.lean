import Verif.Props.Ecdsa
import Verif.Proofs.Cubic
import Verif.Proofs.Primes
/-
Property C55: the curves returned by `by_name` (`/repo/src/jwkest/ecc.py:32-41`,
`/repo/src/jwkest/curves.py`).
-/

namespace Verif
open WeierstrassCurve.Affine

/-- A point given by integers satisfying the curve equation, with `y` nonzero, is a point of the
group. -/
theorem rep_of_element {n : ℕ} [hn : Fact n.Prime] (hodd : n ≠ 2) {p q : ℤ} {x y : ℤ}
    (h : element (some (x, y)) p q n = true) (hy : y.fmod n ≠ 0) :
    ∃ P : (ecurve n p q).Point, Rep (some (x, y)) P := by
  have he := (C49_element (n := n) x y).mp h
  have h2 : (2 : ZMod n) ≠ 0 := by
    intro h
    have : ((2 : ℕ) : ZMod n) = 0 := by exact_mod_cast h
    rw [ZMod.natCast_eq_zero_iff] at this
    exact hodd ((Nat.prime_dvd_prime_iff_eq hn.out Nat.prime_two).mp this)
  have hns : (ecurve n p q).Nonsingular (x : ZMod n) (y : ZMod n) := by
    rw [nonsingular_iff]
    refine ⟨he, .inr ?_⟩
    intro hh
    simp only [ecurve] at hh
    rw [fmod_ne_zero_iff] at hy
    apply mul_ne_zero h2 hy
    linear_combination hh
  exact ⟨.some _ _ hns, hns, rfl⟩

/-- Everything the kernel has to compute about one set of parameters. -/
structure CurveCert (C : NistCurve) (qn : ℕ) (u : Nat × Nat × Nat) : Prop where
  a_eq : C.a = 3
  b_eq : C.b = qn
  odd : C.p ≠ 2
  cubic : noRootCert qn C.p u = true
  on : element (some C.G) C.a C.b C.p = true
  y_ne : C.G.2.fmod C.p ≠ 0
  order : mulf C.a C.b C.p (toProjective (some C.G)) C.N = none
  p_fits : C.p ≤ 256 ^ C.bytes
  N_fits : C.N ≤ 256 ^ C.bytes
  bytes_pos : 0 < C.bytes

theorem CurveCert.noTwoTorsion {C : NistCurve} {qn : ℕ} {u : Nat × Nat × Nat}
    (c : CurveCert C qn u) [Fact C.p.Prime] : NoTwoTorsion C.p C.a C.b :=
  noTwoTorsion_of_cert c.odd qn c.a_eq c.b_eq u c.cubic

theorem CurveCert.base {C : NistCurve} {qn : ℕ} {u : Nat × Nat × Nat}
    (c : CurveCert C qn u) [Fact C.p.Prime] :
    ∃ G : (ecurve C.p C.a C.b).Point, Rep (some C.G) G ∧ C.N • G = 0 := by
  obtain ⟨G, hG⟩ := rep_of_element c.odd (x := C.G.1) (y := C.G.2) c.on c.y_ne
  refine ⟨G, hG, ?_⟩
  have := mulf_rep c.noTwoTorsion (toProjective_rep hG) C.N
  rw [c.order] at this
  exact this

theorem CurveCert.sound {C : NistCurve} {qn : ℕ} {u : Nat × Nat × Nat} (c : CurveCert C qn u)
    (hp : C.p.Prime) (hN : C.N.Prime) : SoundCurve C where
  p_prime := hp
  N_prime := hN
  two_torsion := c.noTwoTorsion
  base := c.base
  p_fits := c.p_fits
  N_fits := c.N_fits
  bytes_pos := c.bytes_pos

def P256 : NistCurve where
  bits := 256
  p := 0xffffffff00000001000000000000000000000000ffffffffffffffffffffffff
  N := 0xffffffff00000000ffffffffffffffffbce6faada7179e84f3b9cac2fc632551
  a := 3
  b := 0xffffffff00000001000000000000000000000000ffffffffffffffffffffffff -
    0x5ac635d8aa3a93e7b3ebbd55769886bc651d06b0cc53b0f63bce3c3e27d2604b
  G := (0x6b17d1f2e12c4247f8bce6e563a440f277037d812deb33a0f4a13945d898c296,
    0x4fe342e2fe1a7f9b8ee7eb4a7c0f9e162bce33576b315ececbb6406837bf51f5)
  bytes := 32

def P384 : NistCurve where
  bits := 384
  p := 0xfffffffffffffffffffffffffffffffffffffffffffffffffffffffffffffffeffffffff0000000000000000ffffffff
  N := 0xffffffffffffffffffffffffffffffffffffffffffffffffc7634d81f4372ddf581a0db248b0a77aecec196accc52973
  a := 3
  b := 0xfffffffffffffffffffffffffffffffffffffffffffffffffffffffffffffffeffffffff0000000000000000ffffffff -
    0xb3312fa7e23ee7e4988e056be3f82d19181d9c6efe8141120314088f5013875ac656398d8a2ed19d2a85c8edd3ec2aef
  G := (0xaa87ca22be8b05378eb1c71ef320ad746e1d3b628ba79b9859f741e082542a385502f25dbf55296c3a545e3872760ab7,
    0x3617de4a96262c6f5d9e98bf9292dc29f8f41dbd289a147ce9da3113b5f0b8c00a60b1ce1d7e819d7a431d7c90ea0e5f)
  bytes := 48

def P521 : NistCurve where
  bits := 521
  p := 0x1ffffffffffffffffffffffffffffffffffffffffffffffffffffffffffffffffffffffffffffffffffffffffffffffffffffffffffffffffffffffffffffffffff
  N := 0x1fffffffffffffffffffffffffffffffffffffffffffffffffffffffffffffffffa51868783bf2f966b7fcc0148f709a5d03bb5c9b8899c47aebb6fb71e91386409
  a := 3
  b := 0x1ffffffffffffffffffffffffffffffffffffffffffffffffffffffffffffffffffffffffffffffffffffffffffffffffffffffffffffffffffffffffffffffffff -
    0x051953eb9618e1c9a1f929a21a0b68540eea2da725b99b315f3b8b489918ef109e156193951ec7e937b1652c0bd3bb1bf073573df883d2c34f1ef451fd46b503f00
  G := (0x0c6858e06b70404e9cd9e3ecb662395b4429c648139053fb521f828af606b4d3dbaa14b5e77efe75928fe1dc127a2ffa8de3348b3c1856a429bf97e7e31c2e5bd66,
    0x11839296a789a3bc0045c8a5fb42c7d1bd998f54449579b446817afbd17273e662c97ee72995ef42640c550b9013fad0761353c7086a272c24088be94769fd16650)
  bytes := 66

theorem cert_P256 : CurveCert P256
    (0xffffffff00000001000000000000000000000000ffffffffffffffffffffffff -
      0x5ac635d8aa3a93e7b3ebbd55769886bc651d06b0cc53b0f63bce3c3e27d2604b)
    (0xa969487079f1744798bf0de6fded091b66e9d328eb0645fe5d979d1339b7f47f, 0xa4a08891884100c13323460107a8d28eede4387fa3e6e9bfebec9f6d72d0b5cc, 0x4cde11cf86cb876cd59cf0115813c55af0ecd3cda667d98bb9a347a56aa74a6d) := by
  constructor <;> decide +kernel

theorem cert_P384 : CurveCert P384
    (0xfffffffffffffffffffffffffffffffffffffffffffffffffffffffffffffffeffffffff0000000000000000ffffffff -
      0xb3312fa7e23ee7e4988e056be3f82d19181d9c6efe8141120314088f5013875ac656398d8a2ed19d2a85c8edd3ec2aef)
    (0x95adec811ebe8d4b9e2b41150d78f91a619189a415583b8f5e01888da3353b61765cde8cd6c12846310c3f0c10aae682, 0x3581b884702fb0931c541a5cacefbe3bea864db86e01e048170560418dca3aa8689f246d9d11ccd2e145532dd48491af, 0x4efcebfdccd7cb25d1b864228f0c32d3a83ec026134ae4753bdff5d3f1fa20b278b31dc3487beb792024fe436f36b43a) := by
  constructor <;> decide +kernel

theorem cert_P521 : CurveCert P521
    (0x1ffffffffffffffffffffffffffffffffffffffffffffffffffffffffffffffffffffffffffffffffffffffffffffffffffffffffffffffffffffffffffffffffff -
      0x051953eb9618e1c9a1f929a21a0b68540eea2da725b99b315f3b8b489918ef109e156193951ec7e937b1652c0bd3bb1bf073573df883d2c34f1ef451fd46b503f00)
    (0x19e72e5691af1c1f1d3f2591c5ad09ec28f1c524714ca75db089cdb9151ca2289840d94ce56793c78b66ef3540572cc405cdc465d82e1a6f69d82c27053ff163aa6, 0xc15e4c9246ef30c73585fc1a490df170ef8e757f1f37e7a6cde9349746d8493ebb31a91aea6f35b910d943c96ba37d442ea7bb6d45c60ec76150edba53d1fc8264, 0x124521c5a63d25338751ea837916053183423f151d92bf4710ef90df9f8ccdf063f99af3ab0f0bd1843a16afc69f16b49b9890c324999f97e8e4650532aea382f92) := by
  constructor <;> decide +kernel

/-- `by_name` returns exactly these three curves, by text or byte-string name, and raises
`ECCException` for any other name. -/
theorem C55_by_name (name : String) :
    curveByName name = (if name = "P-256" then .ok P256 else if name = "P-384" then .ok P384
      else if name = "P-521" then .ok P521 else .error .eccException) := by
  unfold curveByName
  rw [show nistCurve 256 = .ok P256 by decide +kernel, show nistCurve 384 = .ok P384 by decide +kernel,
    show nistCurve 521 = .ok P521 by decide +kernel]

theorem C55_by_name_bytes (name : Bytes) :
    curveByNameB name = (if name = ascii "P-256" then .ok P256 else if name = ascii "P-384" then .ok P384
      else if name = ascii "P-521" then .ok P521 else .error .eccException) := by
  unfold curveByNameB
  rw [show nistCurve 256 = .ok P256 by decide +kernel, show nistCurve 384 = .ok P384 by decide +kernel,
    show nistCurve 521 = .ok P521 by decide +kernel]

theorem C55_P256 : SoundCurve P256 := cert_P256.sound prime_p256 prime_n256
theorem C55_P384 : SoundCurve P384 := cert_P384.sound prime_p384 prime_n384
theorem C55_P521 : SoundCurve P521 := cert_P521.sound prime_p521 prime_n521

/-- Every curve that `by_name` returns is sound: field modulus and order are prime, the curve has
no point of order two, and the base point is on it and killed by the order. -/
theorem C55_sound (name : String) (C : NistCurve) (h : curveByName name = .ok C) : SoundCurve C := by
  rw [C55_by_name] at h
  split at h
  · cases h; exact C55_P256
  · split at h
    · cases h; exact C55_P384
    · split at h
      · cases h; exact C55_P521
      · cases h

theorem C55_sound_bytes (name : Bytes) (C : NistCurve) (h : curveByNameB name = .ok C) :
    SoundCurve C := by
  rw [C55_by_name_bytes] at h
  split at h
  · cases h; exact C55_P256
  · split at h
    · cases h; exact C55_P384
    · split at h
      · cases h; exact C55_P521
      · cases h

/-- The order of the base point is exactly `N`. -/
theorem C55_order {C : NistCurve} (hC : SoundCurve C) [Fact C.p.Prime]
    (G : (ecurve C.p C.a C.b).Point) (hG : Rep (some C.G) G) : addOrderOf G = C.N := by
  obtain ⟨G', hG', hN⟩ := hC.base
  have : G = G' := C49_rep_unique _ _ _ hG hG'
  subst this
  have : Fact C.N.Prime := ⟨hC.N_prime⟩
  refine addOrderOf_eq_prime hN ?_
  rintro rfl
  obtain ⟨hh, hG⟩ := hG
  exact Point.some_ne_zero hh hG.symm

example : ∃ C, curveByName "P-521" = .ok C ∧ SoundCurve C := ⟨P521, by rw [C55_by_name]; decide, C55_P521⟩

/-! Cases meeting the hypotheses of C49 and C51–C54, C56. -/

instance : Fact P256.p.Prime := ⟨prime_p256⟩

/-- C49, C51, C53: the base point and its double are represented points of a group without
points of order two. -/
example : NoTwoTorsion P256.p P256.a P256.b ∧
    ∃ G : (ecurve P256.p P256.a P256.b).Point, Rep (some P256.G) G ∧
      Rep (addA P256.a P256.b P256.p (some P256.G) (some P256.G)) (G + G) ∧
      JRep (toProjective (some P256.G)) G := by
  obtain ⟨G, hG, _⟩ := C55_P256.base
  exact ⟨C55_P256.two_torsion, G, hG, C49_add _ _ _ _ hG hG, (C49_projective G).1 _ hG⟩

/-- C52: a signature is returned. -/
example : ∃ sig, P256.sign 2 12345 678 (some 9) 0 = some (.ok sig) := by
  have h : ((P256.sign 2 12345 678 (some 9) 0).map fun r =>
      match r with | .ok _ => true | .error _ => false) = some true := by decide +kernel
  cases hs : P256.sign 2 12345 678 (some 9) 0 with
  | none => rw [hs] at h; simp at h
  | some r =>
    cases r with
    | ok sig => exact ⟨sig, rfl⟩
    | error e => rw [hs] at h; simp at h

/-- C54: keys in range. -/
example : (0 < 5 ∧ 5 < P521.N) ∧ ∃ z, P521.dhZ 5 (P521.publicKeyFor 7) = .ok z :=
  ⟨by decide +kernel, NistCurve.C54_succeeds C55_P521 5 7 (by decide +kernel) (by decide +kernel)⟩

end Verif
