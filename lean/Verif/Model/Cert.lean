import Verif.Py.Der
import Verif.Py.Str
import Verif.Py.Base64
import Verif.Py.Rsa
/-
RSA keys from certificates, `jwk.py:112-202`.  `imp` is `RSA.importKey` of the library, on bytes or on text.
-/

namespace Verif

/-- `seq[i]`. -/
def derAt (l : List DerElem) (i : Nat) : PyM DerElem :=
  match l[i]? with
  | some e => .ok e
  | none => .error .indexError

/-- `der2rsa(der)`, `jwk.py:112-121`.  A sequence does not decode from a number, and no number is a key
for `importKey`. -/
def der2rsa (imp : Bytes → PyM RsaKey) (der : Bytes) : PyM RsaKey := do
  let cert ← derSequence der
  let tbs ← (do match ← derAt cert 0 with
    | .raw b => derSequence b
    | .int _ => .error .valueError)
  match ← derAt tbs 6 with
  | .raw b => imp b
  | .int _ => .error .valueError

/-- `[A-Za-z0-9+/]`. -/
def isB64Char (c : Char) : Bool :=
  ('A' ≤ c && c ≤ 'Z') || ('a' ≤ c && c ≤ 'z') || ('0' ≤ c && c ≤ '9') || c == '+' || c == '/'

/-- `der_cert2rsa(der)`, `jwk.py:135-143`; the argument is text. -/
def derCert2rsa (imp : Bytes → PyM RsaKey) (text : String) : PyM RsaKey := do
  let a ← asciiEncode (String.ofList (text.toList.filter isB64Char))
  let der ← a2bBase64 a
  der2rsa imp der

/-- `c.isspace()`. -/
def isPySpace (c : Char) : Bool :=
  let n := c.toNat
  (9 ≤ n && n ≤ 13) || (28 ≤ n && n ≤ 32) || n == 0x85 || n == 0xa0 || n == 0x1680 || (0x2000 ≤ n && n ≤ 0x200a) ||
    n == 0x2028 || n == 0x2029 || n == 0x202f || n == 0x205f || n == 0x3000

/-- `s.split()`: `w` is the word so far. -/
def pySplitLoop : List Char → List Char → List (List Char)
  | [], w => if w = [] then [] else [w]
  | c :: s, w =>
    if isPySpace c then (if w = [] then pySplitLoop s [] else w :: pySplitLoop s [])
    else pySplitLoop s (w ++ [c])

/-- See `pySplitLoop`. -/
def pySplit (s : List Char) : List (List Char) := pySplitLoop s []

/-- `pem_cert2rsa(pem_file)` for a file with the text `pem`, `jwk.py:124-132`.  `a2b_base64` wants ASCII. -/
def pemCert2rsa (impText : String → PyM RsaKey) (imp : Bytes → PyM RsaKey) (pem : String) : PyM RsaKey := do
  let _ ← impText pem
  let lines := pySplit (pem.toList.filter (· != ' '))
  let text := String.ofList (lines.drop 1).dropLast.flatten
  let a ← (match asciiEncode text with
    | .ok a => .ok a
    | .error _ => .error .valueError)
  let der ← a2bBase64 a
  der2rsa imp der

/-- `load_x509_cert(url, spec2key)`, `jwk.py:146-168`: the result and the cache after the call.  `get` is the
request: status code and text. -/
def loadX509Cert (get : String → PyM (Nat × String)) (impText : String → PyM RsaKey) (url : String)
    (cache : List (String × RsaKey)) : List (String × RsaKey) × List (String × RsaKey) :=
  match get url with
  | .error _ => ([], cache)
  | .ok (status, text) =>
    if status = 200 then
      match cache.lookup text with
      | some k => ([("rsa", k)], cache)
      | none => match impText text with
        | .ok k => ([("rsa", k)], cache ++ [(text, k)])
        | .error _ => ([], cache)
    else ([], cache)

/-- `import_rsa_key(key)`, `rsa_load(filename)` and `x509_rsa_load(txt)` are the library's reader,
`jwk.py:102-109, 171-176, 197-202`. -/
def x509RsaLoad (impText : String → PyM RsaKey) (text : String) : PyM (List (String × RsaKey)) :=
  (impText text).map fun k => [("rsa", k)]

end Verif
