import Verif.Model.Jwk
import Verif.Spec.Base64
import Verif.Spec.Digits
/-
Specification vocabulary for JSON Web Keys, written without the functions of `Model/Jwk` (only its
data types are shared).
-/

namespace Verif.Spec
open Verif

/-- RFC 7518 section 2, `Base64urlUInt`: the base64url spelling of the big-endian bytes of a positive
integer, without leading zero bytes. -/
def UIntText (n : Nat) (s : String) : Prop :=
  ∃ bs, IsB64Url bs (utf8Encode s) ∧ bytesValue bs = n ∧ (∀ x ∈ bs.head?, x ≠ 0) ∧ 0 < n

/-- What a key attribute holds: nothing (any empty value), or a positive integer. -/
inductive Holds : PyVal → Option Nat → Prop
  | absent {v} (h : v.truthy = false) : Holds v none
  | number {n : Nat} (h : 0 < n) : Holds (.int n) (some n)

/-- The numbers of an RSA key; all but modulus and exponent are optional. -/
structure RsaNums where
  n : Nat
  e : Nat
  d : Option Nat
  p : Option Nat
  q : Option Nat
  dp : Option Nat
  dq : Option Nat
  di : Option Nat
  qi : Option Nat

/-- The attributes `m` hold the numbers `N`. -/
structure RsaHolds (m : RsaMat) (N : RsaNums) : Prop where
  n : Holds m.n (some N.n)
  e : Holds m.e (some N.e)
  d : Holds m.d N.d
  p : Holds m.p N.p
  q : Holds m.q N.q
  dp : Holds m.dp N.dp
  dq : Holds m.dq N.dq
  di : Holds m.di N.di
  qi : Holds m.qi N.qi

/-- The tuple PyCryptodome's `RSA.construct` is given. -/
def RsaNums.tuple (N : RsaNums) : List Int :=
  [(N.n : Int), (N.e : Int)] ++ (N.d.toList.map Int.ofNat) ++
    (match N.p with | some p => Int.ofNat p :: N.q.toList.map Int.ofNat | none => [])

/-- Two keys agree on what is not key material: type, algorithm, use and identifier. -/
structure SameLabels (a b : Key) : Prop where
  kty : a.kty = b.kty
  alg : a.alg = b.alg
  use : a.use = b.use
  kid : a.kid = b.kid

/-- The labels are text, as after every construction from text or UTF-8 bytes. -/
structure TextLabels (k : Key) (kty : String) : Prop where
  kty : k.kty = .str kty
  alg : ∃ s, k.alg = .str s
  use : ∃ s, k.use = .str s
  kid : ∃ s, k.kid = .str s

/-- Same public material.  The library object of an RSA key may differ arbitrarily as long as both or
none of the keys have one. -/
inductive SamePublic : Key → Key → Prop
  | rsa {a b : Key} {m m' : RsaMat} (ha : a.mat = .rsa m) (hb : b.mat = .rsa m')
      (hn : m.n = m'.n) (he : m.e = m'.e) (hk : a.key.truthy = b.key.truthy)
      (hl : SameLabels a b) : SamePublic a b
  | ec {a b : Key} {crv x y d d' : PyVal} {c : KObj} (ha : a.mat = .ec crv x y d c)
      (hb : b.mat = .ec crv x y d' c) (hl : SameLabels a b) : SamePublic a b
  | plain {a b : Key} (ha : a.mat = .plain) (hb : b.mat = .plain) : SamePublic a b

/-- The member names that are public. -/
def publicNames : List String := ["kty", "use", "kid", "alg", "n", "e", "crv", "x", "y"]

/-- Attributes by name (`getattr`), the ones that occur in `public_members`. -/
def attr (k : Key) (name : String) : Option PyVal :=
  match name with
  | "kty" => some k.kty
  | "alg" => some k.alg
  | "use" => some k.use
  | "kid" => some k.kid
  | "x5c" => some k.x5c
  | "x5t" => some k.x5t
  | "x5u" => some k.x5u
  | "n" => match k.mat with | .rsa m => some m.n | _ => none
  | "e" => match k.mat with | .rsa m => some m.e | _ => none
  | "crv" => match k.mat with | .ec crv _ _ _ _ => some crv | _ => none
  | "x" => match k.mat with | .ec _ x _ _ _ => some x | _ => none
  | "y" => match k.mat with | .ec _ _ y _ _ => some y | _ => none
  | "k" => match k.mat with | .sym kk => some kk | _ => none
  | _ => none

/-- The classes of keys. -/
inductive Class
  | plain | rsa | ec | sym
deriving DecidableEq

/-- The class of a key. -/
def classOf (k : Key) : Class :=
  match k.mat with
  | .plain => .plain
  | .rsa _ => .rsa
  | .ec .. => .ec
  | .sym _ => .sym

/-- `public_members` of each class as they stand once the module is loaded
(`jwk.py:244, 418-419, 567, 667`). -/
def publicMembers : Class → List String
  | .plain | .rsa => ["kty", "alg", "use", "kid", "x5c", "x5t", "x5u", "n", "e"]
  | .ec => ["kty", "alg", "use", "kid", "crv", "x", "y"]
  | .sym => ["kty", "alg", "use", "kid", "k"]

/-- Attribute values agree (both present and equal in Python's sense). -/
def AttrEq (a b : Key) (name : String) : Prop :=
  ∃ v w, attr a name = some v ∧ attr b name = some w ∧ w.pyEq v = true

/-- OpenID Connect Core section 10.2: name, key length, hash. -/
inductive KeyLen : String → Nat → HashAlg → Prop
  | a128 : KeyLen "A128KW" 16 .sha256
  | a192 : KeyLen "A192KW" 24 .sha256
  | a256 : KeyLen "A256KW" 32 .sha256
  | hs256 : KeyLen "HS256" 32 .sha256
  | hs384 : KeyLen "HS384" 48 .sha384
  | hs512 : KeyLen "HS512" 64 .sha512

/-- One call that changes a `KEYS` object. -/
inductive KeysOp
  | append (k : Key)
  | add (item : PyDict)
  | wrapAdd (key : KObj) (use kid : PyVal) (rnd : Nat)
  | loadDict (dikt : PyVal)
  | loadJwks (jwks : String)

/-- Loading a list of key specifications: the keys added and the exception that ended the loading, if
any.  Everything before the first specification that cannot be loaded is kept. -/
inductive Loads (E : Env) : List PyVal → List Key → Option Exc → Prop
  | nil : Loads E [] [] none
  | cons {d l k ks e} : keyrep E d = .ok k → Loads E l ks e → Loads E (.dict d :: l) (k :: ks) e
  | bad {d l e} : keyrep E d = .error e → Loads E (.dict d :: l) [] (some e)
  | other {v l} : (∀ d, v ≠ .dict d) → Loads E (v :: l) [] (some .attributeError)

/-- What one call adds to a key container, and the exception it raises, if any. -/
inductive Adds (E : Env) : KeysOp → List Key → Option Exc → Prop
  | append {k} : Adds E (.append k) [k] none
  | add {d k} : keyrep E d = .ok k → Adds E (.add d) [k] none
  | addBad {d e} : keyrep E d = .error e → Adds E (.add d) [] (some e)
  | wrap {key use kid rnd k} : jwkWrap E key use kid rnd = .ok k →
      Adds E (.wrapAdd key use kid rnd) [k] none
  | wrapBad {key use kid rnd e} : jwkWrap E key use kid rnd = .error e →
      Adds E (.wrapAdd key use kid rnd) [] (some e)
  | load {v l ks e} : v.getItem "keys" = .ok (.list l) → Loads E l ks e → Adds E (.loadDict v) ks e
  | loadErr {v e} : v.getItem "keys" = .error e → Adds E (.loadDict v) [] (some e)
  | loadOther {v w e} : v.getItem "keys" = .ok w → (∀ l, w ≠ .list l) → Adds E (.loadDict v) [] e
  | jwks {s v ks e} : jsonLoads s = .ok v → Adds E (.loadDict v) ks e → Adds E (.loadJwks s) ks e
  | jwksBad {s e} : jsonLoads s = .error e → Adds E (.loadJwks s) [] (some e)

/-- The name under which `as_dict` files a key type: `RSA` and `EC` for these and their lower-case
forms, the lower-case form for everything else. -/
def canonKty (s : String) : String :=
  if s ∈ ["RSA", "rsa"] then "RSA" else if s ∈ ["EC", "ec"] then "EC" else pyLower s

end Verif.Spec
