import Verif.Py.Base64
import Verif.Py.Str
/-
Model of /repo/src/jwkest/__init__.py (helper functions).
-/

namespace Verif

/-! ### Hexadecimal text -/

/-- Hex digits (values 0..15), most significant first, of the text `"%x" % n`, `n ≥ 0`. -/
def hexDigits (n : Nat) : List Nat :=
  if n < 16 then [n] else hexDigits (n / 16) ++ [n % 16]
termination_by n
decreasing_by omega

/-- `"%02x" % n` for `n ≥ 0`, as digit values. -/
def hex02 (n : Nat) : List Nat := if n < 16 then [0, n] else hexDigits n

/-- `binascii.unhexlify` on well-formed hex digits: odd length raises `binascii.Error`. -/
def unhexlify : List Nat → PyM Bytes
  | [] => .ok []
  | [_] => .error .binasciiError
  | a :: b :: rest => (unhexlify rest).map (UInt8.ofNat (a * 16 + b) :: ·)

/-- `int(text, 16)` on hex digits; the empty text raises `ValueError`. -/
def intBase16 : List Nat → PyM Nat
  | [] => .error .valueError
  | ds => .ok (ds.foldl (fun acc d => acc * 16 + d) 0)

/-- `intarr2bin(arr)`, `__init__.py:82-83`, for arrays of non-negative integers. -/
def intarr2bin (arr : List Nat) : PyM Bytes := unhexlify (arr.flatMap hex02)

/-- `long2hexseq(l)`, `__init__.py:86-90`, for `l ≥ 0`.  In Python 3 `unhexlify` raises
`binascii.Error` (not `TypeError`) on odd length, so the `except TypeError` branch is dead. -/
def long2hexseq (l : Nat) : PyM Bytes := unhexlify (hexDigits l)

/-- `intarr2long(arr)`, `__init__.py:93-94`. -/
def intarr2long (arr : List Nat) : PyM Nat := intBase16 (arr.flatMap hex02)

/-- The loop of `long2intarr`, `__init__.py:97-102`: `while long_int: long_int, r = divmod(...)`,
with Python's floor division on all integers.  `none` = fuel exhausted. -/
def long2intarrLoop : (fuel : Nat) → Int → List Nat → Option (List Nat)
  | 0, _, _ => none
  | f + 1, n, acc =>
      if n = 0 then some acc
      else long2intarrLoop f (n.fdiv 256) ((n.fmod 256).toNat :: acc)

/-- `long2intarr(n)` for `n ≥ 0`, `__init__.py:97-102`, as a total function
(`Props/Ints` proves it is what the loop returns). -/
def long2intarr (n : Nat) : List Nat :=
  if _h : n = 0 then [] else long2intarr (n / 256) ++ [n % 256]
termination_by n
decreasing_by omega

/-- `b64e(b)`, `__init__.py:141-145`. -/
def b64e (b : Bytes) : Bytes := rstrip 61 (urlsafeB64encode b)

/-- `long_to_base64(n)` after `long2intarr`, `__init__.py:107-111`: `struct.pack('%sB')`, the
`'\x00'` *text* substituted for the empty string (which makes `urlsafe_b64encode` raise `TypeError`
on Python 3), encoding, `rstrip`, ASCII decoding. -/
def longToBase64Core (bys : List Nat) : PyM String :=
  if bys.length = 0 then .error .typeError
  else asciiDecode (rstrip 61 (urlsafeB64encode (bys.map UInt8.ofNat)))

/-- `long_to_base64(n)` for `n ≥ 0`, `__init__.py:105-111`. -/
def longToBase64 (n : Nat) : PyM String := longToBase64Core (long2intarr n)

/-- `long_to_base64(n)` for any integer with explicit fuel for the `while` loop;
`none` = still looping. -/
def longToBase64Fuel (fuel : Nat) (n : Int) : Option (PyM String) :=
  (long2intarrLoop fuel n []).map longToBase64Core

/-- `base64_to_long(data)` for `bytes` data, `__init__.py:114-120`. -/
def base64ToLongBytes (data : Bytes) : PyM Nat := do
  let d ← urlsafeB64decode (data ++ [61, 61])
  intarr2long (d.map UInt8.toNat)

/-- `base64_to_long(data)` for `str` data: `data.encode("ascii")` first, `__init__.py:115-116`. -/
def base64ToLong (data : String) : PyM Nat := do
  base64ToLongBytes (← asciiEncode data)

/-- `base64url_to_long(data)` for `bytes`, `__init__.py:123-136`. -/
def base64urlToLongBytes (data : Bytes) : PyM Nat := do
  let d ← urlsafeB64decode (data ++ [61, 61])
  if data.contains 43 || data.contains 47 || data.contains 61 then .error .valueError
  else intarr2long (d.map UInt8.toNat)

/-- `base64url_to_long(data)` for `str`: `bytes(data)` without an encoding raises `TypeError` on
Python 3, `__init__.py:131`. -/
def base64urlToLongStr (_data : String) : PyM Nat := .error .typeError

/-- The character class `[A-Za-z0-9_-]` of `_b64_re`, `__init__.py:148`. -/
def isB64Url (c : UInt8) : Bool :=
  (65 ≤ c && c ≤ 90) || (97 ≤ c && c ≤ 122) || (48 ≤ c && c ≤ 57) || c == 95 || c == 45

/-- `_b64_re.match(cb)`, `__init__.py:148`: `^[A-Za-z0-9_-]*$`, where `$` also matches before a
final newline. -/
def b64ReMatch (cb : Bytes) : Bool :=
  cb.all isB64Url || (cb.getLast? == some 10 && cb.dropLast.all isB64Url)

/-- `add_padding(b)`, `__init__.py:151-162`. -/
def addPadding (b : Bytes) : PyM Bytes :=
  if b.length % 4 = 1 then .error .badSyntax
  else if b.length % 4 = 2 then .ok (b ++ [61, 61])
  else if b.length % 4 = 3 then .ok (b ++ [61])
  else .ok b

/-- `b64d(b)`, `__init__.py:165-183`. -/
def b64d (b : Bytes) : PyM Bytes :=
  let cb := rstrip 61 b
  if b64ReMatch cb = false then .error .badSyntax
  else if cb = b then do urlsafeB64decode (← addPadding b)
  else urlsafeB64decode b

/-- `b64e_enc_dec(str, "utf-8", "ascii")`, `__init__.py:186-187`. -/
def b64eEncDec (s : String) : PyM String := asciiDecode (b64e (utf8Encode s))

/-- `b64d_enc_dec(str, "ascii", "utf-8")`, `__init__.py:190-191`. -/
def b64dEncDec (s : String) : PyM String := do utf8Decode (← b64d (← asciiEncode s))

/-- `safe_str_cmp(a, b)`, `__init__.py:195-202`; strings as lists of code points. -/
def safeStrCmp (a b : List Char) : Bool :=
  if a.length ≠ b.length then false
  else (List.zip a b).foldl (fun r p => r ||| (p.1.toNat ^^^ p.2.toNat)) 0 == 0

/-- `constant_time_compare(a, b)`, `__init__.py:205-212`. -/
def constantTimeCompare (a b : Bytes) : Bool :=
  if a.length ≠ b.length then false
  else (List.zip a b).foldl (fun r p => r ||| (p.1 ^^^ p.2)) 0 == 0

end Verif
