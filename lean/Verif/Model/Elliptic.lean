/-
Model of `/repo/src/jwkest/elliptic.py`.

Integers are Python integers (`Int`), `//` and `%` are floor division and floor remainder
(`Int.fdiv`, `Int.fmod`).  Scalars are natural numbers, as the module documentation requires
(`elliptic.py:17`).  The neutral element `None` is `none`.  A modulus 0 (ZeroDivisionError) is not
modelled: every modulus the library passes is one of the domain primes.
-/

namespace Verif

/-- `point` of the module documentation, `elliptic.py:19-20`, `None` for the neutral element. -/
abbrev EPt := Option (Int × Int)

/-- A point in Jacobian coordinates `(X, Y, Z, Z**2, Z**3)`, `elliptic.py:22-24`. -/
abbrev JPt := Option (Int × Int × Int × Int × Int)

/-- The loop of `euclid`, `elliptic.py:90-94`; returns `(xx, yy, a)`. -/
def euclidLoop (a b x xx y yy : Int) : Int × Int × Int :=
  if _h : b = 0 then (xx, yy, a)
  else
    let q := a.fdiv b
    euclidLoop b (a.fmod b) (xx - q * x) x (yy - q * y) y
termination_by b.natAbs
decreasing_by
  rcases Int.lt_trichotomy b 0 with hb | hb | hb
  · have h1 := Int.fmod_eq_emod (a := a) (b := b)
    have h2 := Int.emod_nonneg a _h
    have h3 := Int.emod_lt a _h
    split at h1 <;> omega
  · exact absurd hb _h
  · have := Int.fmod_nonneg_of_pos a hb
    have := Int.fmod_lt_of_pos a hb
    omega

/-- `euclid(a, b)`, `elliptic.py:85-95`. -/
def euclid (a b : Int) : Int × Int × Int := euclidLoop a b 0 1 1 0

/-- `while i < 0: i += n`, `elliptic.py:102-103`, for positive `n` (the guard `0 < n` is only there
for termination: with `n ≤ 0` Python would loop forever). -/
def addUntilNonneg (i n : Int) : Int :=
  if i < 0 ∧ 0 < n then addUntilNonneg (i + n) n else i
termination_by (-i).toNat
decreasing_by omega

/-- `inv(a, n)`, `elliptic.py:98-104`. -/
def inv (a n : Int) : Int := addUntilNonneg (euclid a n).1 n

/-- `curve_q`, `elliptic.py:107-109`. -/
def curveQ (x y p n : Int) : Int := ((x * x - p) * x - y * y).fmod n

/-- `element`, `elliptic.py:112-118`. -/
def element (pt : EPt) (p q n : Int) : Bool :=
  match pt with
  | some (x, y) => (x * x * x - p * x - q).fmod n == (y * y).fmod n
  | none => true

/-- `to_projective`, `elliptic.py:121-126`. -/
def toProjective : EPt → JPt
  | some (x, y) => some (x, y, 1, 1, 1)
  | none => none

/-- `from_projective`, `elliptic.py:129-134`. -/
def fromProjective (jp : JPt) (n : Int) : EPt :=
  match jp with
  | some (x, y, _, zs, zc) => some ((x * inv zs n).fmod n, (y * inv zc n).fmod n)
  | none => none

/-- `neg` on affine points, `elliptic.py:137-139`. -/
def negA (pt : EPt) (n : Int) : EPt :=
  match pt with
  | some (x, y) => some (x, (n - y).fmod n)
  | none => none

/-- `neg` on Jacobian points, `elliptic.py:137-139`. -/
def negJ (jp : JPt) (n : Int) : JPt :=
  match jp with
  | some (x, y, z) => some (x, (n - y).fmod n, z)
  | none => none

/-- `add(p, q, n, p1, p2)`, `elliptic.py:145-162`. -/
def addA (p _q n : Int) (p1 p2 : EPt) : EPt :=
  match p1, p2 with
  | some (x1, y1), some (x2, y2) =>
    if (x1 - x2).fmod n ≠ 0 then
      let s := ((y1 - y2) * inv (x1 - x2) n).fmod n
      let x := (s * s - x1 - x2).fmod n
      some (x, n - (y1 + s * (x - x1)).fmod n)
    else if (y1 + y2).fmod n ≠ 0 then
      let s := ((3 * x1 * x1 - p) * inv (2 * y1) n).fmod n
      let x := (s * s - 2 * x1).fmod n
      some (x, n - (y1 + s * (x - x1)).fmod n)
    else none
  | some a, none => some a
  | none, b => b

/-- `doublef(p, q, n, jp)`, `elliptic.py:206-220`. -/
def doublef (p _q n : Int) (jp : JPt) : JPt :=
  match jp with
  | none => none
  | some (x1, y1, z1, _z1p2, z1p3) =>
    let y1p2 := (y1 * y1).fmod n
    let a := (4 * x1 * y1p2).fmod n
    let b := (3 * x1 * x1 - p * z1p3 * z1).fmod n
    let x3 := (b * b - 2 * a).fmod n
    let y3 := (b * (a - x3) - 8 * y1p2 * y1p2).fmod n
    let z3 := (2 * y1 * z1).fmod n
    let z3p2 := (z3 * z3).fmod n
    some (x3, y3, z3, z3p2, (z3p2 * z3).fmod n)

/-- `addf(p, q, n, jp1, jp2)`, `elliptic.py:167-203`. -/
def addf (p q n : Int) (jp1 jp2 : JPt) : JPt :=
  match jp1, jp2 with
  | some (x1, y1, z1, z1s, z1c), some (x2, y2, z2, z2s, z2c) =>
    let s1 := (y1 * z2c).fmod n
    let s2 := (y2 * z1c).fmod n
    let u1 := (x1 * z2s).fmod n
    let u2 := (x2 * z1s).fmod n
    if (u1 - u2).fmod n ≠ 0 then
      let h := (u2 - u1).fmod n
      let r := (s2 - s1).fmod n
      let hs := (h * h).fmod n
      let hc := (hs * h).fmod n
      let x3 := (-hc - 2 * u1 * hs + r * r).fmod n
      let y3 := (-s1 * hc + r * (u1 * hs - x3)).fmod n
      let z3 := (z1 * z2 * h).fmod n
      let z3s := (z3 * z3).fmod n
      let z3c := (z3s * z3).fmod n
      some (x3, y3, z3, z3s, z3c)
    else if (s1 + s2).fmod n ≠ 0 then doublef p q n (some (x1, y1, z1, z1s, z1c))
    else none
  | some a, none => some a
  | none, b => b

/-- The loop of `mul`, `elliptic.py:229-233`. -/
def mulLoop (p q n : Int) (res p1 : EPt) (c : Nat) : EPt :=
  if 0 < c then
    let res' := if c % 2 = 1 then addA p q n res p1 else res
    mulLoop p q n res' (addA p q n p1 p1) (c / 2)
  else res
termination_by c

/-- `mul(p, q, n, p1, c)`, `elliptic.py:226-233`. -/
def mulA (p q n : Int) (p1 : EPt) (c : Nat) : EPt := mulLoop p q n none p1 c

/-- The loop of `_gbd`, `elliptic.py:244-245`, for `0 < n` and `0 < i` (both always hold; the
guards are for termination only). -/
def gbdLoop (n i : Nat) : Nat :=
  if n % i = 0 ∧ 0 < n ∧ 0 < i then gbdLoop n (2 * i) else i
termination_by n + 1 - i
decreasing_by
  rename_i h
  have := Nat.le_of_dvd h.2.1 (Nat.dvd_of_mod_eq_zero h.1)
  omega

/-- `_gbd(n)`, `elliptic.py:240-246`. -/
def gbd (n : Nat) : Nat := if n = 0 then 0 else gbdLoop n 1 / 4

/-- The loop of `_signed_bin` with the final `r.append(n)`, `elliptic.py:259-273`.  The list is
kept reversed, which is the `r[::-1]` of the last line. -/
def signedBinLoop (n : Nat) (r : List Int) : List Int :=
  if 1 < n then
    if n % 2 = 1 then
      if gbd (n + 1) > gbd (n - 1) then signedBinLoop ((n + 1) / 2) (-1 :: r)
      else signedBinLoop ((n - 1) / 2) (1 :: r)
    else signedBinLoop (n / 2) (0 :: r)
  else (n : Int) :: r
termination_by n

/-- `_signed_bin(n)`, `elliptic.py:256-273`. -/
def signedBin (n : Nat) : List Int := signedBinLoop n []

/-- `mulf(p, q, n, jp1, c)`, `elliptic.py:279-289`. -/
def mulf (p q n : Int) (jp1 : JPt) (c : Nat) : JPt :=
  let jp0 := negJ jp1 n
  (signedBin c).foldl (fun res s =>
    let res := doublef p q n res
    if s ≠ 0 then
      if 0 < s then addf p q n res jp1 else addf p q n res jp0
    else res) none

/-- `mulp(p, q, n, p1, c)`, `elliptic.py:293-295`. -/
def mulp (p q n : Int) (p1 : EPt) (c : Nat) : EPt :=
  fromProjective (mulf p q n (toProjective p1) c) n

/-- `precomp[i][j]` for digits in -1, 0, 1, `elliptic.py:312-314` (index -1 is the last entry). -/
def precomp (p q n : Int) (jp1 jp2 : JPt) (i j : Int) : JPt :=
  let jp1p2 := addf p q n jp1 jp2
  let jp1n2 := addf p q n jp1 (negJ jp2 n)
  if i = 0 then if j = 0 then none else if j = 1 then jp2 else negJ jp2 n
  else if i = 1 then if j = 0 then jp1 else if j = 1 then jp1p2 else jp1n2
  else if j = 0 then negJ jp1 n else if j = 1 then negJ jp1n2 n else negJ jp1p2 n

/-- `muladdf(p, q, n, jp1, c1, jp2, c2)`, `elliptic.py:299-322`. -/
def muladdf (p q n : Int) (jp1 : JPt) (c1 : Nat) (jp2 : JPt) (c2 : Nat) : JPt :=
  let s1 := signedBin c1
  let s2 := signedBin c2
  let l := max s1.length s2.length
  let s1 := List.replicate (l - s1.length) 0 ++ s1
  let s2 := List.replicate (l - s2.length) 0 ++ s2
  (s1.zip s2).foldl (fun res ij =>
    let res := doublef p q n res
    if ij.1 ≠ 0 ∨ ij.2 ≠ 0 then addf p q n res (precomp p q n jp1 jp2 ij.1 ij.2) else res) none

/-- `muladdp(p, q, n, p1, c1, p2, c2)`, `elliptic.py:325-329`. -/
def muladdp (p q n : Int) (p1 : EPt) (c1 : Nat) (p2 : EPt) (c2 : Nat) : EPt :=
  fromProjective (muladdf p q n (toProjective p1) c1 (toProjective p2) c2) n

/-- `sign_bit(p1)`, `elliptic.py:338-340`. -/
def signBit (p1 : EPt) : Int :=
  match p1 with
  | some (_, y) => y.fmod 2
  | none => 0

/-- `y_from_x(x, p, q, n, sign)`, `elliptic.py:344-348`: the body computes a local and returns
nothing, so the result is Python's `None` for every input. -/
def yFromX (_x _p _q _n _sign : Int) : Option Int := none

end Verif
