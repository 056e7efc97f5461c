import Verif.Py.Basic
/-
DER (X.690) as far as certificates need it: lengths, objects with a tag of one byte, sequences.
-/

namespace Verif.Spec

/-- The length octets of `n` (X.690, 8.1.3 and 10.1): one byte below 128, otherwise the number of bytes and the
bytes, without leading zeros. -/
inductive DerLength : Nat → Bytes → Prop
  | short {c : UInt8} (h : c.toNat < 128) : DerLength c.toNat [c]
  | long {c : UInt8} {b : Bytes} (hl : c.toNat = 128 + b.length) (h0 : b ≠ []) (hz : b.head? ≠ some 0) (hn : 128 ≤ bytesToNat b) :
      DerLength (bytesToNat b) (c :: b)

/-- `e` is the encoding of the content `c` with the tag `t`. -/
def Tlv (t : UInt8) (c e : Bytes) : Prop := ∃ l, DerLength c.length l ∧ e = t :: (l ++ c)

/-- `e` is a sequence of the encodings `items`. -/
def DerSeq (items : List Bytes) (e : Bytes) : Prop :=
  Tlv 0x30 items.flatten e ∧ ∀ i ∈ items, ∃ t c, Tlv t c i

/-- A certificate (RFC 5280, 4.1) in which the fields of the part that is signed are `tbs`. What follows that
part, the signature, is in `sig`. -/
def Certificate (tbs sig : List Bytes) (e : Bytes) : Prop := ∃ t, DerSeq tbs t ∧ DerSeq (t :: sig) e

end Verif.Spec
