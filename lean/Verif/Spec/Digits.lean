import Verif.Py.Basic
/-
Positional notation.
-/

namespace Verif.Spec

/-- Value of a digit list, most significant first (specification of positional notation). -/
def beValue (base : Nat) : List Nat → Nat
  | [] => 0
  | d :: ds => d * base ^ ds.length + beValue base ds

/-- Big-endian value of a byte string. -/
def bytesValue (b : Bytes) : Nat := beValue 256 (b.map UInt8.toNat)

end Verif.Spec
