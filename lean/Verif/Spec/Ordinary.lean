import Verif.Spec.Jws
/-
Keys as the constructors make them from valid input, and the exceptions of this package.
-/

namespace Verif.Spec

/-- A key whose type name and material belong together: an RSA key with its library object, an EC key with
two coordinates that are not zero, a symmetric key with a secret. -/
inductive Ordinary : Key → Prop
  | rsa {k m r} (hm : k.mat = .rsa m) (ht : k.kty = .str "RSA") (hk : k.key = .rsa r) : Ordinary k
  | ec {k crv x y d c} {i j : Int} (hm : k.mat = .ec crv x y d c) (ht : k.kty = .str "EC")
      (hx : x = .int i) (hy : y = .int j) (hi : i ≠ 0) (hj : j ≠ 0) : Ordinary k
  | sym {k kk secret} (hm : k.mat = .sym kk) (ht : k.kty = .str "oct")
      (hk : k.key = .val (.bytes secret)) : Ordinary k

/-- Subclasses of `JWKESTException` among the exceptions that checking a compact token can raise
(`__init__.py:29-72`, `jws.py:57-79`). -/
def PackageExc : List Exc :=
  [.badSyntax, .wrongNumberOfParts, .badSignature, .signerAlgError, .noSuitableSigningKeys]

/-- Other exceptions that checking a compact token can raise. -/
def ForeignExc : List Exc :=
  [.binasciiError, .unicodeDecodeError, .jsonDecodeError, .typeError, .attributeError, .keyError]

end Verif.Spec
