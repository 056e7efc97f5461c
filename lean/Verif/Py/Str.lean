import Verif.Py.Basic
/-
Python `str`, modelled by Lean `String` (sequences of Unicode scalar values; Python strings with
lone surrogates, which cannot be encoded as UTF-8, are outside the model).
-/

namespace Verif

/-- `s.encode("utf-8")`. -/
def utf8Encode (s : String) : Bytes := s.toList.flatMap String.utf8EncodeChar

/-- `b.decode("utf-8")` (strict). -/
def utf8Decode (b : Bytes) : PyM String :=
  match String.fromUTF8? ⟨b.toArray⟩ with
  | some s => .ok s
  | none => .error .unicodeDecodeError

/-- `s.encode("ascii")`. -/
def asciiEncode (s : String) : PyM Bytes :=
  if s.toList.all (fun c => c.toNat < 128) then .ok (s.toList.map fun c => UInt8.ofNat c.toNat)
  else .error .unicodeEncodeError

/-- `b.decode("ascii")`. -/
def asciiDecode (b : Bytes) : PyM String :=
  if b.all (· < 128) then .ok (String.ofList (b.map fun c => Char.ofNat c.toNat))
  else .error .unicodeDecodeError

/-- `s.lower()`, modelled on ASCII letters only.  The code only compares the result with the ASCII
words none, jwt, jwe, rsa, ec, oct; no non-ASCII character lower-cases to a letter occurring in
those words, so the comparisons agree with Python's full Unicode `lower`. -/
def pyLower (s : String) : String := String.ofList (s.toList.map Char.toLower)

/-- `s.upper()` on ASCII letters; only applied to literal words in the modelled code. -/
def pyUpper (s : String) : String := String.ofList (s.toList.map Char.toUpper)

/-- `s.startswith(p)`. -/
def startsWith (s p : String) : Bool := p.toList.isPrefixOf s.toList

/-- `s.endswith(p)`. -/
def endsWith (s p : String) : Bool := p.toList.isSuffixOf s.toList

end Verif
