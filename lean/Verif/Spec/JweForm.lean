import Verif.Spec.Jwe
import Verif.Spec.Gcm
import Verif.Spec.Extra
import Verif.Spec.KeyWrap
/-
What the segments of a JWE token made by the library are, written from RFC 7516, RFC 7518, RFC 3394
and NIST SP 800-38D, with the places where the library departs from them spelled out.
-/

namespace Verif.Spec
open Verif

/-- CBC: block `j` of the ciphertext is the enciphered xor of block `j` of the plaintext with the block
before it in `iv || ct`. -/
def IsCbc (F : Bytes → Bytes) (iv pt ct : Bytes) : Prop :=
  ct.length = pt.length ∧ ∀ j, 16 * j + 16 ≤ pt.length →
    (ct.drop (16 * j)).take 16 =
      F (xorBytes ((pt.drop (16 * j)).take 16) (((iv ++ ct).drop (16 * j)).take 16))

/-- PKCS #7 padding to blocks of 16 bytes. -/
def padded (pt : Bytes) : Bytes :=
  pt ++ List.replicate (16 - pt.length % 16) (UInt8.ofNat (16 - pt.length % 16))

/-- The AES key that GCM uses for the content key: the number that the bytes denote, in 16 bytes if it
fits and in 32 bytes otherwise.  (The standard uses the bytes as they are.) -/
def gcmKey (key : Bytes) : Bytes :=
  natToBytesW (if bytesToNat key < 2 ^ 128 then 16 else 32) (bytesToNat key)

/-- The tag segment of GCM: the 16 bytes of the tag without leading zero bytes (one zero byte for the
tag zero).  (The standard keeps all 16 bytes.) -/
def GcmTagSegment (t : Nat) (tag : Bytes) : Prop :=
  ∃ z, natToBytesW 16 t = List.replicate z 0 ++ tag ∧ (tag.head? = some 0 → tag = [0]) ∧ tag ≠ []

/-- `ct` and `tag` are the AES-CBC-HMAC encryption of `pt`, RFC 7518 section 5.2. -/
def SealedCbc (C : BlockCipher) (H : Hashes) (key iv aad pt ct tag : Bytes) : Prop :=
  iv.length = 16 ∧ ∃ s a, (key.length, s, a) ∈ cbcHmacParams ∧
    IsCbc (C.enc (key.drop s)) iv (padded pt) ct ∧
    tag = (H.hmac a (key.take s) (macInput aad iv ct)).take s

/-- The key for AES key wrap that the library derives from a Diffie-Hellman secret `z`: `n` bytes of
the concatenation KDF, the algorithm name standing without its length. -/
def agreedKey (H : Hashes) (z : Bytes) (name : String) (apu apv : Bytes) (n : Nat) : Bytes :=
  (kdfStream (H.hash .sha256) z (ascii name ++ natToBytesW 4 apu.length ++ apu ++
    natToBytesW 4 apv.length ++ apv ++ natToBytesW 4 (8 * n)) 2).take n

/-- What the library hashes for the first block of a derived key. -/
def agreedInput (z : Bytes) (name : String) (apu apv : Bytes) (n : Nat) : Bytes :=
  natToBytesW 4 1 ++ z ++ (ascii name ++ natToBytesW 4 apu.length ++ apu ++
    natToBytesW 4 apv.length ++ apv ++ natToBytesW 4 (8 * n))

/-- What RFC 7518 section 4.6.2 hashes for the first block: the name is preceded by its length. -/
def rfcInput (z : Bytes) (name : String) (apu apv : Bytes) (n : Nat) : Bytes :=
  natToBytesW 4 1 ++ z ++ (natToBytesW 4 (ascii name).length ++ ascii name ++ natToBytesW 4 apu.length ++ apu ++
    natToBytesW 4 apv.length ++ apv ++ natToBytesW 4 (8 * n))

/-- The key that RFC 7518 section 4.6.2 derives from `z`. -/
def rfcKey (H : Hashes) (z : Bytes) (name : String) (apu apv : Bytes) (n : Nat) : Bytes :=
  (kdfStream (H.hash .sha256) z (natToBytesW 4 (ascii name).length ++ ascii name ++ natToBytesW 4 apu.length ++
    apu ++ natToBytesW 4 apv.length ++ apv ++ natToBytesW 4 (8 * n)) 2).take n

/-- RSA encryption of the content key with the padding that the algorithm names. -/
def RsaSealed (E : Env) (p : RsaPad) (r : RsaKey) (rnd : Nat) (cek ek : Bytes) : Prop :=
  match p with
  | .pkcs1 => E.R.enc15 r rnd cek = .ok ek
  | .oaep => E.R.encOaep .sha1 r rnd cek = .ok ek
  | .oaep256 => E.R.encOaep .sha256 r rnd cek = .ok ek

/-- The name under which the key wrap of an agreement is known. -/
inductive WrapName : String → String → Nat → Prop
  | a128 : WrapName "ECDH-ES+A128KW" "A128KW" 16
  | a192 : WrapName "ECDH-ES+A192KW" "A192KW" 24
  | a256 : WrapName "ECDH-ES+A256KW" "A256KW" 32

/-- AES key wrap with the default initial value, of a content key of full blocks. -/
def wrapped (C : BlockCipher) (kek cek : Bytes) : Bytes :=
  rfc3394Wrap C kek 0xA6A6A6A6A6A6A6A6 (blocks8 cek)

/-- The header of a token. -/
def TokenHeader (token : Bytes) (h : PyDict) : Prop :=
  ∃ s0 ek iv ct tag, JweParts token s0 (.dict h) ek iv ct tag

/-- The value as it stands in a header: bytes become text, at every depth. -/
inductive Told : PyVal → PyVal → Prop
  | none : Told .none .none
  | bool (b : Bool) : Told (.bool b) (.bool b)
  | int (i : Int) : Told (.int i) (.int i)
  | str (s : String) : Told (.str s) (.str s)
  | bytes (s : String) : Told (.bytes (utf8Encode s)) (.str s)
  | list {l l' : List PyVal} : List.Forall₂ Told l l' → Told (.list l) (.list l')
  | dict {d d' : List (String × PyVal)} : d.map Prod.fst = d'.map Prod.fst →
      List.Forall₂ Told (d.map Prod.snd) (d'.map Prod.snd) → Told (.dict d) (.dict d')

/-- A header shows the value `v` under the name `n`, or nothing. -/
def Shows (h : PyDict) (n : String) : Option PyVal → Prop
  | .none => PyDict.get? h n = none
  | some v => ∃ w, PyDict.get? h n = some w ∧ Told v w

/-- What an encrypting object made from the entries `d` has under the name `n`: the library stores the
value of `crit` as `x5c`, and an empty value as an empty list. -/
def entry (d : PyDict) (n : String) : Option PyVal :=
  if n = "crit" then none
  else if n = "x5c" then
    (((PyDict.get? d "crit").or (PyDict.get? d "x5c")).map fun v => if v.truthy then v else .list [])
  else PyDict.get? d n

/-- The names that the header of an RSA token takes from the object. -/
def rsaNames : List String := ["alg", "enc", "epk", "zip", "jku", "x5u", "x5t", "x5c", "typ", "cty", "apu"]

/-- The names that the header of a key wrap or agreement token takes from the object. -/
def symNames : List String := ["alg", "enc", "jku", "x5u", "x5t", "x5c", "typ", "cty"]

/-- The `kid` of the header of an RSA token: the label of the key if it has one, else the entry of the
object if it is not empty. -/
def rsaKid (d : PyDict) (kid : PyVal) : Option PyVal :=
  if kid.truthy then some kid else (PyDict.get? d "kid").filter PyVal.truthy

/-- The `kid` of the header of other tokens: the argument, else the label of the key if it has one, else
the entry of the object. -/
def symKid (d : PyDict) (kid : PyVal) (arg : Option PyVal) : Option PyVal :=
  arg.or (if kid.truthy then some kid else PyDict.get? d "kid")

end Verif.Spec
