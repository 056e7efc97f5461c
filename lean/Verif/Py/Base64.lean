import Verif.Py.Basic
/-
Model of the Python 3 standard library functions `base64.urlsafe_b64encode` and
`base64.urlsafe_b64decode` (the latter with the lenient, non-strict `binascii.a2b_base64`).
-/

namespace Verif

/-- The standard base64 alphabet, `binascii.table_b2a_base64`. -/
def b64Char (n : Nat) : UInt8 :=
  if n < 26 then UInt8.ofNat (65 + n)            -- A-Z
  else if n < 52 then UInt8.ofNat (97 + (n - 26)) -- a-z
  else if n < 62 then UInt8.ofNat (48 + (n - 52)) -- 0-9
  else if n = 62 then 43                          -- '+'
  else 47                                         -- '/'

/-- `binascii.table_a2b_base64`: value of a standard alphabet character. -/
def b64Val (c : UInt8) : Option Nat :=
  if 65 ≤ c ∧ c ≤ 90 then some (c.toNat - 65)
  else if 97 ≤ c ∧ c ≤ 122 then some (c.toNat - 97 + 26)
  else if 48 ≤ c ∧ c ≤ 57 then some (c.toNat - 48 + 52)
  else if c = 43 then some 62
  else if c = 47 then some 63
  else none

/-- `binascii.b2a_base64` without the trailing newline, i.e. `base64.b64encode`. -/
def b64encode : Bytes → Bytes
  | [] => []
  | [a] => [b64Char (a.toNat / 4), b64Char (a.toNat % 4 * 16), 61, 61]
  | [a, b] => [b64Char (a.toNat / 4), b64Char (a.toNat % 4 * 16 + b.toNat / 16),
               b64Char (b.toNat % 16 * 4), 61]
  | a :: b :: c :: rest =>
      b64Char (a.toNat / 4) :: b64Char (a.toNat % 4 * 16 + b.toNat / 16) ::
      b64Char (b.toNat % 16 * 4 + c.toNat / 64) :: b64Char (c.toNat % 64) :: b64encode rest

/-- `bytes.translate` with `maketrans(b'+/', b'-_')`. -/
def toUrl (c : UInt8) : UInt8 := if c = 43 then 45 else if c = 47 then 95 else c

/-- `bytes.translate` with `maketrans(b'-_', b'+/')`. -/
def fromUrl (c : UInt8) : UInt8 := if c = 45 then 43 else if c = 95 then 47 else c

/-- `base64.urlsafe_b64encode`. -/
def urlsafeB64encode (b : Bytes) : Bytes := (b64encode b).map toUrl

/-- The main loop of `binascii.a2b_base64` (CPython 3.7+, `strict_mode=False`).  State: `quad` the
position in the current group of four, `left` the bits carried over, `pads` the number of `=`
seen since the last data character.  Characters outside the alphabet are skipped. -/
def a2bLoop : Bytes → (quad left pads : Nat) → PyM Bytes
  | [], quad, _, _ => if quad = 0 then .ok [] else .error .binasciiError
  | c :: cs, quad, left, pads =>
      if c = 61 then
        if 2 ≤ quad then
          if 4 ≤ quad + (pads + 1) then .ok []
          else a2bLoop cs quad left (pads + 1)
        else a2bLoop cs quad left pads
      else match b64Val c with
        | none => a2bLoop cs quad left pads
        | some v =>
          if quad = 0 then a2bLoop cs 1 v 0
          else if quad = 1 then
            (a2bLoop cs 2 (v % 16) 0).map (UInt8.ofNat (left * 4 + v / 16) :: ·)
          else if quad = 2 then
            (a2bLoop cs 3 (v % 4) 0).map (UInt8.ofNat (left * 16 + v / 4) :: ·)
          else
            (a2bLoop cs 0 0 0).map (UInt8.ofNat (left * 64 + v) :: ·)

/-- `base64.b64decode(s)` / `binascii.a2b_base64(s)`. -/
def a2bBase64 (s : Bytes) : PyM Bytes := a2bLoop s 0 0 0

/-- `base64.urlsafe_b64decode`. -/
def urlsafeB64decode (s : Bytes) : PyM Bytes := a2bBase64 (s.map fromUrl)

end Verif
