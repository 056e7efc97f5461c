import Verif.Py.Base64
/-
Text forms of a certificate.
-/

namespace Verif.Spec

/-- The alphabet of base64 (RFC 4648, section 4). -/
def base64Alphabet : List Char := "ABCDEFGHIJKLMNOPQRSTUVWXYZabcdefghijklmnopqrstuvwxyz0123456789+/".toList

/-- ASCII text. -/
def chars (b : Bytes) : List Char := b.map fun c => Char.ofNat c.toNat

/-- Without the characters outside the alphabet, `s` is the base64 of `d` (without padding). -/
def Base64In (d : Bytes) (s : String) : Prop :=
  s.toList.filter (· ∈ base64Alphabet) = chars ((b64encode d).filter (· ≠ 61))

/-- White space other than the blank that may end a line. -/
def LineEnd (nl : List Char) : Prop := nl ≠ [] ∧ ∀ c ∈ nl, c ∈ ['\n', '\r', '\t']

/-- The PEM form (RFC 7468) of `d`, in lines of any length: the text after the last line end is not there. -/
def Pem (d : Bytes) (nl : List Char) (text : List Char) : Prop :=
  ∃ lines : List (List Char), (∀ l ∈ lines, l ≠ []) ∧ lines.flatten = chars (b64encode d) ∧
    text = "-----BEGIN CERTIFICATE-----".toList ++ nl ++ (lines.map (· ++ nl)).flatten ++ "-----END CERTIFICATE-----".toList

end Verif.Spec
