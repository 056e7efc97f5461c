import Verif.Py.Basic
import Verif.Py.Str
import Verif.Model.Elliptic
/-
Model of `/repo/src/jwkest/curves.py` and `/repo/src/jwkest/ecc.py`.

`random.getrandbits(k)` is an input: the model functions take the drawn number.  The weak curves of
128 and 160 bits (`curves.py:59-71`, order `None`) are in `domains` but no class is built from them
(`by_name` only reaches 256, 384 and 521).
-/

namespace Verif

/-- `DOMAINS`, `curves.py:20-71`: `(p, order, b, x, y)`. -/
def domains (bits : Nat) : Option (Nat × Option Nat × Nat × Nat × Nat) :=
  match bits with
  | 192 => some (0xfffffffffffffffffffffffffffffffeffffffffffffffff,
      some 0xffffffffffffffffffffffff99def836146bc9b1b4d22831,
      0x64210519e59c80e70fa7e9ab72243049feb8deecc146b9b1,
      0x188da80eb03090f67cbf20eb43a18800f4ff0afd82ff1012,
      0x07192b95ffc8da78631011ed6b24cdd573f977a11e794811)
  | 224 => some (0xffffffffffffffffffffffffffffffff000000000000000000000001,
      some 0xffffffffffffffffffffffffffff16a2e0b8f03e13dd29455c5c2a3d,
      0xb4050a850c04b3abf54132565044b0b7d7bfd8ba270b39432355ffb4,
      0xb70e0cbd6bb4bf7f321390b94a03c1d356c21122343280d6115c1d21,
      0xbd376388b5f723fb4c22dfe6cd4375a05a07476444d5819985007e34)
  | 256 => some (0xffffffff00000001000000000000000000000000ffffffffffffffffffffffff,
      some 0xffffffff00000000ffffffffffffffffbce6faada7179e84f3b9cac2fc632551,
      0x5ac635d8aa3a93e7b3ebbd55769886bc651d06b0cc53b0f63bce3c3e27d2604b,
      0x6b17d1f2e12c4247f8bce6e563a440f277037d812deb33a0f4a13945d898c296,
      0x4fe342e2fe1a7f9b8ee7eb4a7c0f9e162bce33576b315ececbb6406837bf51f5)
  | 384 => some (0xfffffffffffffffffffffffffffffffffffffffffffffffffffffffffffffffeffffffff0000000000000000ffffffff,
      some 0xffffffffffffffffffffffffffffffffffffffffffffffffc7634d81f4372ddf581a0db248b0a77aecec196accc52973,
      0xb3312fa7e23ee7e4988e056be3f82d19181d9c6efe8141120314088f5013875ac656398d8a2ed19d2a85c8edd3ec2aef,
      0xaa87ca22be8b05378eb1c71ef320ad746e1d3b628ba79b9859f741e082542a385502f25dbf55296c3a545e3872760ab7,
      0x3617de4a96262c6f5d9e98bf9292dc29f8f41dbd289a147ce9da3113b5f0b8c00a60b1ce1d7e819d7a431d7c90ea0e5f)
  | 521 => some (0x1ffffffffffffffffffffffffffffffffffffffffffffffffffffffffffffffffffffffffffffffffffffffffffffffffffffffffffffffffffffffffffffffffff,
      some 0x1fffffffffffffffffffffffffffffffffffffffffffffffffffffffffffffffffa51868783bf2f966b7fcc0148f709a5d03bb5c9b8899c47aebb6fb71e91386409,
      0x051953eb9618e1c9a1f929a21a0b68540eea2da725b99b315f3b8b489918ef109e156193951ec7e937b1652c0bd3bb1bf073573df883d2c34f1ef451fd46b503f00,
      0x0c6858e06b70404e9cd9e3ecb662395b4429c648139053fb521f828af606b4d3dbaa14b5e77efe75928fe1dc127a2ffa8de3348b3c1856a429bf97e7e31c2e5bd66,
      0x11839296a789a3bc0045c8a5fb42c7d1bd998f54449579b446817afbd17273e662c97ee72995ef42640c550b9013fad0761353c7086a272c24088be94769fd16650)
  | 128 => some (0xffffffffffffffffffffffffffffff61, none, 0xd83d3eb8266a89927d73d5fe263d5f23,
      0xa94d2d8531f7af8bde367def12b98ead, 0x9f44e1d671beb68fd2df7f877ab13fa6)
  | 160 => some (0xffffffffffffffffffffffffffffffffffffffd1, none,
      0x94bfe70deef7b94742c089ca4db3ca27fbe1f754, 0xcc6562c2969ac57524b8d0f300d1f598c908c121,
      0x952ddde80a252683dd7ba90fb5919899b5af69f5)
  | _ => none

/-- `get_curve(bits)`, `curves.py:76-83`: `(bits, prime, order, p, q, point)`; `CURVE_P = 3`. -/
def getCurve (bits : Nat) : PyM (Nat × Nat × Option Nat × Int × Int × (Int × Int)) :=
  match domains bits with
  | some (p, n, b, x, y) => .ok (bits, p, n, 3, (p : Int) - b, (x, y))
  | none => .error .keyError

/-- An instance of `NISTEllipticCurve`, `ecc.py:26-30`. -/
structure NistCurve where
  bits : Nat
  p : Nat
  N : Nat
  a : Int
  b : Int
  G : Int × Int
  bytes : Nat
deriving DecidableEq

/-- `NISTEllipticCurve(bits)`, `ecc.py:27-30`.  `order None` is mapped to 0 (not reachable through
`by_name`). -/
def nistCurve (bits : Nat) : PyM NistCurve := do
  let (bits, p, n, a, b, g) ← getCurve bits
  .ok { bits, p, N := n.getD 0, a, b, G := g, bytes := (bits + 7) / 8 }

/-- `NISTEllipticCurve.by_name` on a text name, `ecc.py:32-41`. -/
def curveByName (name : String) : PyM NistCurve :=
  if name = "P-256" then nistCurve 256
  else if name = "P-384" then nistCurve 384
  else if name = "P-521" then nistCurve 521
  else .error .eccException

/-- `NISTEllipticCurve.by_name` on a byte-string name, `ecc.py:32-41`. -/
def curveByNameB (name : Bytes) : PyM NistCurve :=
  if name = ascii "P-256" then nistCurve 256
  else if name = ascii "P-384" then nistCurve 384
  else if name = ascii "P-521" then nistCurve 521
  else .error .eccException

namespace NistCurve

/-- `name`, `ecc.py:45-46`. -/
def name (C : NistCurve) : String := "P-" ++ toString C.bits

/-- `int2bytes`, `ecc.py:49-50`. -/
def int2bytes (C : NistCurve) (x : Nat) : Bytes := longToBytes x C.bytes

/-- `bytes2int`, `ecc.py:52-54`. -/
def bytes2int (b : Bytes) : Nat := bytesToNat b

/-- `compress`, `ecc.py:57-59`. -/
def compress (pt : Int × Int) : Int × Int := (pt.1, signBit (some pt))

/-- `uncompress`, `ecc.py:61-62`: the second component is whatever `y_from_x` returns. -/
def uncompress (C : NistCurve) (pt : Int × Int) : Int × Option Int :=
  (pt.1, yFromX pt.1 C.a C.b C.p pt.2)

/-- `public_key_for`, `ecc.py:70-71`. -/
def publicKeyFor (C : NistCurve) (priv : Nat) : EPt := mulp C.a C.b C.p (some C.G) priv

/-- `key_pair` when `getrandbits` returned `rnd`, `ecc.py:65-68`. -/
def keyPair (C : NistCurve) (rnd : Nat) : Nat × EPt :=
  let priv := rnd % (C.N - 1) + 1
  (priv, mulp C.a C.b C.p (some C.G) priv)

/-- `dh_z(priv, pub)`, `ecc.py:75-76`; indexing `None` is a TypeError.  The coordinate is the
result of `% p`, hence nonnegative, and is converted as such. -/
def dhZ (C : NistCurve) (priv : Nat) (pub : EPt) : PyM Bytes :=
  match mulp C.a C.b C.p pub priv with
  | some (x, _) => .ok (C.int2bytes x.toNat)
  | none => .error .typeError

/-- `_sign_loop`, `ecc.py:78-88`, with fuel.  `rnd` is the number drawn by `getrandbits` if `k` is
`None`; there is at most one draw because `k` is set after the first. `none` = out of fuel. -/
def signLoop (C : NistCurve) (h priv rnd : Nat) :
    (fuel : Nat) → (r s : Nat) → (k : Option Nat) → Option (PyM (Nat × Nat))
  | 0, _, _, _ => none
  | f + 1, r, s, k =>
    if r = 0 ∨ s = 0 then
      let k' := k.getD (rnd % (C.N - 1) + 1)
      let kinv := inv k' C.N
      match mulp C.a C.b C.p (some C.G) k' with
      | none => some (.error .typeError)
      | some (x, _) =>
        let r' := (x.fmod C.N).toNat
        if r' = 0 then signLoop C h priv rnd f r' s (some k')
        else
          let s' := ((kinv * (h + r' * priv : Nat)).fmod C.N).toNat
          signLoop C h priv rnd f r' s' (some k')
    else some (.ok (r, s))

/-- `while h > self.N: h >>= 1`, `ecc.py:92-93` and `102-103`. -/
def shrink (N h : Nat) : Nat := if h > N then shrink N (h / 2) else h
termination_by h
decreasing_by omega

/-- `sign(h, priv, k)`, `ecc.py:91-99`.  `none` means that the loop does not end within `fuel`
rounds. -/
def sign (C : NistCurve) (fuel : Nat) (h priv : Nat) (k : Option Nat) (rnd : Nat) :
    Option (PyM Bytes) :=
  match signLoop C (shrink C.N h) priv rnd fuel 0 0 k with
  | none => none
  | some (.error e) => some (.error e)
  | some (.ok (r, s)) => some (.ok (C.int2bytes r ++ C.int2bytes s))

/-- `verify(h, sig, pub)`, `ecc.py:101-112`; unpacking `None` is a TypeError. -/
def verify (C : NistCurve) (h : Nat) (sig : Bytes) (pub : EPt) : PyM Bool :=
  let h := shrink C.N h
  let r := bytes2int (sig.take C.bytes)
  let s := bytes2int (sig.drop C.bytes)
  if (0 < r ∧ r < C.N) ∧ (0 < s ∧ s < C.N) then
    let w := inv s C.N
    let u1 := ((h * w).fmod C.N).toNat
    let u2 := ((r * w).fmod C.N).toNat
    match muladdp C.a C.b C.p (some C.G) u1 pub u2 with
    | none => .error .typeError
    | some (x, _) => .ok ((r : Int).fmod C.N == x.fmod C.N)
  else .ok false

end NistCurve

end Verif
