import Verif.Py.Rsa
import Verif.Py.Val
/-
Everything outside the repository that the token code calls: block cipher, hashes, RSA, zlib,
`json.loads` on byte strings that are not UTF-8, and HTTP.
-/

namespace Verif

/-- The outside world.  A theorem that holds for every `Env` holds whatever the libraries and the
network do. -/
structure Env where
  C : BlockCipher
  H : Hashes
  R : RsaLib
  Z : Zlib
  /-- `json.loads(b)` for bytes `b` that are not valid UTF-8. -/
  jsonBytes : Bytes → PyM PyVal
  /-- The body of an HTTP GET of the given URL with status 200 (`jwk.py:848-854`); an exception
  otherwise. -/
  httpGet : PyVal → PyM String

/-- A lawful environment for the examples. -/
def toyEnv : Env where
  C := toyCipher
  H := toyHashes
  R := toyRsa
  Z := toyZlib
  jsonBytes _ := .error .jsonDecodeError
  httpGet _ := .error .generic

end Verif
