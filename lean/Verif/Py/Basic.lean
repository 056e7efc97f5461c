/-
Python run-time semantics used by the model of pyjwkest: byte strings, exceptions, slicing,
integer/byte conversion.  Nothing here is repository code; it is the reading of the Python 3
built-ins (and of two PyCryptodome helpers) on which the model is based.
-/

namespace Verif

/-- Python `bytes`. -/
abbrev Bytes := List UInt8

/-- The exception classes that the modelled code can raise.  Library exceptions first, then the
classes of `/repo/src/jwkest` (`__init__.py:29-75`, `jws.py:57-78`, `jwe.py:47-84`,
`jwk.py:44-61`, `extra.py:26`, `aes_gcm.py:55-65`, `ecc.py:21`). -/
inductive Exc
  -- Python / library
  | typeError | valueError | keyError | indexError | attributeError | assertionError
  | structError | binasciiError | unicodeDecodeError | unicodeEncodeError | jsonDecodeError
  | overflowError | unboundLocalError | zlibError | zeroDivisionError | generic
  | notImplementedError
  -- the call does not return (used for loops that run for ever, never a Python exception)
  | nonTermination
  -- jwkest
  | badSyntax | badSignature | wrongNumberOfParts | unknownAlgorithm | missingKey
  | jwkException | serializationNotPossible | deSerializationNotPossible | headerError
  | jwsFormatError | noSuitableSigningKeys | signerAlgError
  | verificationFailure | invalidInputException | invalidTagException | eccException
  | cannotDecode | notSupportedAlgorithm | parameterError | noSuitableEncryptionKey
  | noSuitableDecryptionKey | noSuitableECDHKey | decryptionFailed | wrongEncryptionAlgorithm
deriving DecidableEq, Repr

/-- `isinstance(e, ValueError)`: `binascii.Error`, `UnicodeError` and `json.JSONDecodeError` are
subclasses of `ValueError`. -/
def Exc.isValueError : Exc → Bool
  | .valueError | .binasciiError | .unicodeDecodeError | .unicodeEncodeError
  | .jsonDecodeError => true
  | _ => false

/-- A Python computation: a value or a raised exception. -/
abbrev PyM := Except Exc

deriving instance DecidableEq for Except

/-- The computation returned (did not raise). -/
def PyM.Returns {α} (m : PyM α) : Prop := ∃ a, m = .ok a

/-- `int.from_bytes(b, 'big')`, i.e. PyCryptodome `bytes_to_long`; `bytes_to_long(b'') = 0`. -/
def bytesToNat (b : Bytes) : Nat := b.foldl (fun acc x => acc * 256 + x.toNat) 0

/-- Big-endian bytes of `n` without leading zeros; `[]` for 0. -/
def natToBytes (n : Nat) : Bytes :=
  if _h : n = 0 then [] else natToBytes (n / 256) ++ [UInt8.ofNat (n % 256)]
termination_by n
decreasing_by omega

/-- `struct.pack('>Q', n)` / any fixed width big-endian packing of width `w`, without the range
check (callers check the range). -/
def natToBytesW : (w : Nat) → (n : Nat) → Bytes
  | 0, _ => []
  | w + 1, n => natToBytesW w (n / 256) ++ [UInt8.ofNat (n % 256)]

/-- PyCryptodome `Util.number.long_to_bytes(n, blocksize)` for `n ≥ 0`: big-endian without leading
zeros (a single zero byte for 0), then left padded with zeros to a multiple of `blocksize`. -/
def longToBytes (n : Nat) (blocksize : Nat := 0) : Bytes :=
  let s := if n = 0 then [0] else natToBytes n
  if blocksize > 0 ∧ s.length % blocksize ≠ 0 then
    List.replicate (blocksize - s.length % blocksize) 0 ++ s
  else s

/-- `s.rstrip(ch)` for a single byte. -/
def rstrip (ch : UInt8) (s : Bytes) : Bytes := (s.reverse.dropWhile (· == ch)).reverse

/-- ASCII bytes of a literal (used for literal byte strings such as `b"."`). -/
def ascii (s : String) : Bytes := s.toList.map (fun c => UInt8.ofNat c.toNat)

end Verif
