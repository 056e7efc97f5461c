import Verif.Spec.Jws
import Verif.Model.Jwe
/-
Specification of JWE encryption and decryption, written without the functions of `Model/Jwe`:
which algorithm names there are, which keys may be used, and what the parts of a token are.
-/

namespace Verif.Spec
open Verif

mutual
/-- Every dictionary in the value has distinct keys (as all Python dictionaries have). -/
def Distinct : PyVal → Prop
  | .list l => DistinctL l
  | .dict d => (d.map Prod.fst).Nodup ∧ DistinctD d
  | _ => True
/-- `Distinct` for every element. -/
def DistinctL : List PyVal → Prop
  | [] => True
  | v :: l => Distinct v ∧ DistinctL l
/-- `Distinct` for every value. -/
def DistinctD : List (String × PyVal) → Prop
  | [] => True
  | (_, v) :: l => Distinct v ∧ DistinctD l
end

/-- The key management algorithms by family. -/
inductive KeyMgmt
  /-- AES key wrap with a shared key of so many bytes. -/
  | wrap (n : Nat)
  | rsa (p : RsaPad)
  /-- Diffie-Hellman, the agreed key being the content key. -/
  | direct
  /-- Diffie-Hellman and key wrap under the agreed key of so many bytes. -/
  | agreeWrap (n : Nat)
deriving DecidableEq, Repr

/-- The names of RFC 7518 section 4.1 that the library supports. -/
inductive MgmtName : String → KeyMgmt → Prop
  | a128 : MgmtName "A128KW" (.wrap 16)
  | a192 : MgmtName "A192KW" (.wrap 24)
  | a256 : MgmtName "A256KW" (.wrap 32)
  | rsa15 : MgmtName "RSA1_5" (.rsa .pkcs1)
  | oaep : MgmtName "RSA-OAEP" (.rsa .oaep)
  | oaep256 : MgmtName "RSA-OAEP-256" (.rsa .oaep256)
  | dir : MgmtName "ECDH-ES" .direct
  | ec128 : MgmtName "ECDH-ES+A128KW" (.agreeWrap 16)
  | ec192 : MgmtName "ECDH-ES+A192KW" (.agreeWrap 24)
  | ec256 : MgmtName "ECDH-ES+A256KW" (.agreeWrap 32)

/-- The content encryption algorithms of RFC 7518 section 5.1, with the sizes of key and
initialization vector in bytes. -/
inductive EncName : String → Nat → Nat → Prop
  | g128 : EncName "A128GCM" 16 12
  | g192 : EncName "A192GCM" 24 12
  | g256 : EncName "A256GCM" 32 12
  | c128 : EncName "A128CBC-HS256" 32 16
  | c192 : EncName "A192CBC-HS384" 48 16
  | c256 : EncName "A256CBC-HS512" 64 16

/-- The key type a family wants, lower and upper case. -/
def MgmtType : KeyMgmt → String × String
  | .wrap _ => ("oct", "OCT")
  | .rsa _ => ("rsa", "RSA")
  | .direct => ("ec", "EC")
  | .agreeWrap _ => ("ec", "EC")

/-- A key that encryption and decryption may use for algorithm `alg`. -/
def EncPicked (m : KeyMgmt) (alg : String) (kid : PyVal) (k : Key) : Prop :=
  Picked (MgmtType m).1 (MgmtType m).2 alg "enc" kid k

/-- `k` is the first such key. -/
def FirstPicked (m : KeyMgmt) (alg : String) (kid : PyVal) (l : List Key) (k : Key) : Prop :=
  ∃ pre post, l = pre ++ k :: post ∧ EncPicked m alg kid k ∧ ∀ x ∈ pre, ¬ EncPicked m alg kid x

/-- Two key objects hold the same key material (labels such as `kid` and `use` may differ). -/
def SameMaterial (k k' : Key) : Prop := k'.key = k.key ∧ k'.mat = k.mat

/-- The random values have the requested lengths. -/
def RndLengths (r : JweRnd) : Prop := (∀ n, (r.key n).length = n) ∧ ∀ n, (r.iv n).length = n

/-- Everything that can get into the header is a real Python value. -/
structure RealValues (o : Jwe) (keys : List Key) (kid : Option PyVal) : Prop where
  dict : ∀ n v, PyDict.get? o.dict n = some v → Distinct v
  jwk : ∀ v, o.jwk = some (.other v) → Distinct v
  kids : ∀ k ∈ keys, Distinct k.kid
  own_kid : ∀ k, o.jwk = some (.key k) → Distinct k.kid
  kid : ∀ v, kid = some v → Distinct v

/-- The token consists of the header segment `s0` and the five decoded parts. -/
structure JweParts (token : Bytes) (s0 : Bytes) (hdr : PyVal) (ek iv ct tag : Bytes) : Prop where
  text : token = s0 ++ 46 :: b64e ek ++ 46 :: b64e iv ++ 46 :: b64e ct ++ 46 :: b64e tag
  header : ∃ hs, s0 = b64e (utf8Encode hs) ∧ jsonLoads hs = .ok hdr

/-- The message as bytes: text as UTF-8. -/
def MsgBytes (v : PyVal) (b : Bytes) : Prop := (∃ s, v = .str s ∧ b = utf8Encode s) ∨ v = .bytes b

end Verif.Spec
