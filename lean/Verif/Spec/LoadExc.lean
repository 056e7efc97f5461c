import Verif.Py.Basic
/-
The exceptions of reading a JWK, by key type, and of reading a JWK set.
-/

namespace Verif.Spec

/-- A JWK with `"kty": "RSA"`. -/
def RsaJwkExc : List Exc :=
  [.typeError, .deSerializationNotPossible, .attributeError, .keyError, .unicodeEncodeError, .binasciiError, .valueError, .indexError]

/-- A JWK with `"kty": "oct"`. -/
def OctJwkExc : List Exc := [.typeError, .valueError, .overflowError, .badSyntax, .binasciiError]

/-- A JWK with `"kty": "EC"`. -/
def EcJwkExc : List Exc := [.typeError, .headerError, .deSerializationNotPossible, .eccException, .attributeError]

/-- A JWK set. -/
def SetExc : List Exc :=
  [.jsonDecodeError, .typeError, .attributeError, .keyError, .valueError, .indexError, .overflowError, .unicodeEncodeError,
    .binasciiError, .badSyntax, .headerError, .deSerializationNotPossible, .eccException]

/-- `verify_json` with the caller's keys, exceptions that some text raises whatever these are. -/
def JsonRaised : List Exc :=
  [.jsonDecodeError, .typeError, .attributeError, .keyError, .valueError, .indexError, .overflowError, .unicodeEncodeError,
    .unicodeDecodeError, .binasciiError, .badSyntax, .wrongNumberOfParts, .signerAlgError, .jwsFormatError,
    .headerError, .deSerializationNotPossible, .eccException]

/-- `verify_json` with the caller's keys, exceptions that depend on these. -/
def JsonKeyed : List Exc := [.badSignature, .noSuitableSigningKeys, .assertionError]

end Verif.Spec
