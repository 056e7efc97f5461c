import Verif.Py.Basic
/-
Bit-level specification of RFC 4648 section 5 (base64url without padding), independent of the
model: a text and a byte string correspond when they spell the same bits.
-/

namespace Verif.Spec

/-- RFC 4648 Table 2. -/
def urlAlphabet : Bytes :=
  ascii "ABCDEFGHIJKLMNOPQRSTUVWXYZabcdefghijklmnopqrstuvwxyz0123456789-_"

/-- Bit `i` of `n`. -/
def bit (i n : Nat) : Bool := n / 2 ^ i % 2 == 1

/-- The eight bits of a byte, most significant first. -/
def byteBits (c : UInt8) : List Bool := [7, 6, 5, 4, 3, 2, 1, 0].map fun i => bit i c.toNat

/-- The six bits spelled by a character: its index in the alphabet, most significant first. -/
def sextetBits (c : UInt8) : List Bool :=
  [5, 4, 3, 2, 1, 0].map fun i => bit i (urlAlphabet.idxOf c)

/-- `text` is the unpadded base64url encoding of `data`: alphabet characters spelling the bits of
`data` followed by fewer than six zero bits. -/
def IsB64Url (data text : Bytes) : Prop :=
  (∀ c ∈ text, c ∈ urlAlphabet) ∧
  ∃ k < 6, text.flatMap sextetBits = data.flatMap byteBits ++ List.replicate k false

/-- `data` is what the alphabet characters `text` decode to when left-over bits are ignored. -/
def DecodesTo (text data : Bytes) : Prop :=
  ∃ rest : List Bool, rest.length < 8 ∧
    text.flatMap sextetBits = data.flatMap byteBits ++ rest

/-- Padding that Python's decoder tolerates after `n` characters: none (and `n` is a possible
length), or enough `=` to complete the last group of four. -/
def PadOk (n k : Nat) : Prop :=
  (k = 0 ∧ n % 4 ≠ 1) ∨ (1 ≤ k ∧ (n % 4 = 0 ∨ n % 4 = 3 ∨ (n % 4 = 2 ∧ 2 ≤ k)))

instance (n k : Nat) : Decidable (PadOk n k) := by unfold PadOk; infer_instance

/-- What `b64d` is documented to accept: alphabet characters, then `=` padding. -/
def CleanText (b d : Bytes) : Prop :=
  ∃ k, b = d ++ List.replicate k 61 ∧ (∀ c ∈ d, c ∈ urlAlphabet) ∧ PadOk d.length k

/-- The hole: alphabet characters, one newline, then at least one `=`. -/
def NewlineText (b d : Bytes) : Prop :=
  ∃ k, b = d ++ [10] ++ List.replicate k 61 ∧ (∀ c ∈ d, c ∈ urlAlphabet) ∧ 1 ≤ k ∧
    PadOk d.length k

end Verif.Spec
