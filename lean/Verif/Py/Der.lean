import Verif.Py.Basic
/-
Model of `Cryptodome.Util.asn1` (PyCryptodome 3): decoding a DER object and a DER sequence.  Nothing here is
repository code.
-/

namespace Verif

/-- `BytesIO_EOF.read(n)`: the bytes read and the rest. -/
def derRead (n : Nat) (s : Bytes) : PyM (Bytes × Bytes) :=
  if s.length < n then .error .valueError else .ok (s.take n, s.drop n)

/-- `DerObject._decodeLen(s)`.  For the first octet 0x80, `encoded_length[0]` is out of range. -/
def derLen : Bytes → PyM (Nat × Bytes)
  | [] => .error .valueError
  | c :: s =>
    if c.toNat ≤ 127 then .ok (c.toNat, s)
    else do
      let (e, s) ← derRead (c.toNat - 128) s
      match e with
      | [] => .error .indexError
      | 0 :: _ => .error .valueError
      | e => if bytesToNat e ≤ 127 then .error .valueError else .ok (bytesToNat e, s)

/-- `DerObject._decodeFromStream(s)`: tag, payload and rest. -/
def derObject : Bytes → PyM (UInt8 × Bytes × Bytes)
  | [] => .error .valueError
  | t :: s => do
    let (n, s) ← derLen s
    let (p, s) ← derRead n s
    .ok (t, p, s)

/-- An element of a `DerSequence`: the number of an INTEGER, the encoding of everything else. -/
inductive DerElem
  | raw (b : Bytes)
  | int (i : Int)
deriving DecidableEq, Repr

/-- `DerInteger.decode(data).value`, two's complement. -/
def derInt (p : Bytes) : Int :=
  match p with
  | [] => 0
  | c :: _ => if c.toNat < 128 then bytesToNat p else (bytesToNat p : Int) - 256 ^ p.length

/-- The loop of `DerSequence._decodeFromStream`.  Every round reads two bytes or more, so as many rounds as there are
bytes are enough; the last branch is not reached (`derElems_total`). -/
def derElems : Nat → Bytes → PyM (List DerElem)
  | _, [] => .ok []
  | 0, _ :: _ => .error .nonTermination
  | fuel + 1, s => do
    let (t, p, r) ← derObject s
    let l ← derElems fuel r
    .ok ((if t = 2 then .int (derInt p) else .raw (s.take (s.length - r.length))) :: l)

/-- `DerSequence().decode(b)`. -/
def derSequence (b : Bytes) : PyM (List DerElem) := do
  let (t, p, r) ← derObject b
  if t ≠ 0x30 then .error .valueError
  else do
    let l ← derElems p.length p
    if r ≠ [] then .error .valueError else .ok l

end Verif
