import Verif.Spec.Ordinary
/-
The exceptions that decrypting a compact token can raise.
-/

namespace Verif.Spec

/-- Subclasses of `JWKESTException` that `JWE.decrypt` can raise (`__init__.py:29-72`, `jwe.py:47-85`, `jwk.py:44-62`,
`extra.py:26`). -/
def DecryptPackage : List Exc :=
  [.badSyntax, .wrongNumberOfParts, .wrongEncryptionAlgorithm, .noSuitableDecryptionKey, .notSupportedAlgorithm,
    .decryptionFailed, .verificationFailure, .headerError, .deSerializationNotPossible]

/-- Other exceptions: those of Python, `zlib.error`, a plain `Exception`, and classes of the modules `aes_gcm` and
`ecc` that derive from `Exception` only (`aes_gcm.py:55-67`, `ecc.py:21`). -/
def DecryptForeign : List Exc :=
  [.binasciiError, .unicodeDecodeError, .jsonDecodeError, .typeError, .attributeError, .keyError, .indexError,
    .valueError, .structError, .zlibError, .generic, .invalidInputException, .invalidTagException, .eccException]

/-- Decrypting the content, in both families. -/
def contentExc : List Exc :=
  [.invalidInputException, .invalidTagException, .verificationFailure, .generic, .valueError, .structError]

/-- A token with an RSA algorithm. -/
def rsaExc : List Exc := contentExc ++ [.indexError, .typeError, .notSupportedAlgorithm, .zlibError, .decryptionFailed]

/-- A token with a key wrapping algorithm. -/
def symExc : List Exc := contentExc ++ [.wrongNumberOfParts, .decryptionFailed]

/-- A token with an ECDH-ES algorithm. -/
def ecExc : List Exc :=
  contentExc ++ [.indexError, .typeError, .attributeError, .headerError, .deSerializationNotPossible, .eccException,
    .badSyntax, .binasciiError, .decryptionFailed]

end Verif.Spec
