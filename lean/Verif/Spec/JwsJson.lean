import Verif.Spec.Jws
/-
Specification of the JSON serialization of JWS (RFC 7515 section 7.2) as this library reads it.
-/

namespace Verif.Spec
open Verif

/-- A member of the merged header: the protected header wins. -/
def Merged (prot unprot : PyDict) (n : String) : Option PyVal :=
  match PyDict.get? prot n with
  | some v => some v
  | none => PyDict.get? unprot n

/-- `sign` is an entry with encoded protected header `ph`, signature text `sg` and unprotected header
`unprot`. -/
def SigEntry (sign : PyVal) (ph sg : String) (unprot : PyDict) : Prop :=
  ∃ d, sign = .dict d ∧ PyDict.get? d "protected" = some (.str ph) ∧
    PyDict.get? d "signature" = some (.str sg) ∧
    (PyDict.get? d "header" = some (.dict unprot) ∨
     (PyDict.get? d "header" = none ∧ unprot = []))

/-- What the header member `jwk` stands for. -/
inductive EmbeddedKey (E : Env) : PyVal → JKey → Prop
  | dict (d : PyDict) (k : Key) (h : keyrep E d = .ok k) : EmbeddedKey E (.dict d) (.key k)
  | text (s : String) (d : PyDict) (k : Key) (hs : jsonLoads s = .ok (.dict d))
      (h : keyrep E d = .ok k) : EmbeddedKey E (.str s) (.key k)
  | other (v : PyVal) (hd : ∀ d, v ≠ .dict d) (hs : ∀ s, v ≠ .str s) : EmbeddedKey E v (.other v)

/-- The keys tried for one entry: the caller's; without any, the one in the token's own header. -/
def EntryKeys (E : Env) (prot unprot : PyDict) (keys l : List Key) : Prop :=
  (keys ≠ [] ∧ l = keys) ∨
  (keys = [] ∧ ∃ v k, Merged prot unprot "jwk" = some v ∧ EmbeddedKey E v (.key k) ∧ l = [k])

/-- One entry is accepted over the payload text and stands for the message `m`. -/
def EntryVerified (E : Env) (keys : List Key) (an : Bool) (sigalg payload sign m : PyVal) : Prop :=
  ∃ ph pl sg prot unprot p sig, SigEntry sign ph sg unprot ∧ payload = .str pl ∧
    Token (utf8Encode ph ++ 46 :: utf8Encode pl ++ 46 :: utf8Encode sg) (utf8Encode ph)
      (utf8Encode pl) (.dict prot) p sig ∧
    Message E.jsonBytes prot p m ∧ Merged prot unprot "self" = none ∧
    (∀ v, Merged prot unprot "jwk" = some v → ∃ k, EmbeddedKey E v k) ∧
    ((an = true ∧ ∃ v, PyDict.get? prot "alg" = some v ∧ NoneName v) ∨
     ∃ name a l k, PyDict.get? prot "alg" = some (.str name) ∧ SupportedAlg name a ∧
      (sigalg.truthy = true → sigalg = .str name) ∧ EntryKeys E prot unprot keys l ∧
      FirstAccepting E a name ((Merged prot unprot "kid").getD .none)
        (utf8Encode ph ++ 46 :: utf8Encode pl) sig l k)

/-- The signature entries of the parsed token; the flattened form is its own entry. -/
def Listed (d : PyDict) (l : List PyVal) : Prop :=
  PyDict.get? d "signatures" = some (.list l) ∨
  (l = [] ∧ (PyDict.get? d "signatures" = some (.dict []) ∨
    PyDict.get? d "signatures" = some (.str ""))) ∨
  (PyDict.get? d "signatures" = none ∧ l = [.dict d])

/-- The claim the entries agree on: the first that is not null. -/
def Combined (ms : List PyVal) (m : PyVal) : Prop :=
  ((∀ x ∈ ms, x = .none) ∧ m = .none) ∨
  ∃ pre post, ms = pre ++ m :: post ∧ m ≠ .none ∧ (∀ x ∈ pre, x = .none) ∧
    ∀ x ∈ post, m.pyEq x = true

end Verif.Spec

namespace Verif.Spec
open Verif

/-- What a text payload is read back as: the JSON value it is, or the text. -/
def TextMessage (s : String) (m : PyVal) : Prop :=
  jsonLoads s = .ok m ∨ ((∀ v, jsonLoads s ≠ .ok v) ∧ m = .str s)

/-- The headers `sign_json` works through. -/
def HeaderPairs (o : Jwx) (headers : Option (List (PyDict × PyVal))) (l : List (PyDict × PyVal)) :
    Prop :=
  headers = some l ∨
  (headers = none ∧ ∃ alg, PyDict.get? o.dict "alg" = some alg ∧ l = [([("alg", alg)], .none)])

/-- The algorithm of one signature: from its protected header, otherwise the object's. -/
def EntryAlg (o : Jwx) (p : PyDict) (alg : PyVal) : Prop :=
  PyDict.get? p "alg" = some alg ∨
  (PyDict.get? p "alg" = none ∧ PyDict.get? o.dict "alg" = some alg)

/-- The members of an optional header. -/
def members : PyVal → PyDict
  | .dict d => d
  | _ => []

/-- A pair of headers and the keys for which signing is expected to be reversible. -/
structure HeaderOk (E : Env) (o : Jwx) (keys : List Key) (p : PyDict) (u : PyVal) (name : String)
    (a : SigAlg) : Prop where
  alg : EntryAlg o p (.str name)
  sup : SupportedAlg name a
  json : (PyVal.dict p).jsonable = true
  cty : CtyMayBeJson p
  unprot : u.truthy = false ∨ ∃ d, u = .dict d ∧ u.jsonable = true ∧ PyDict.get? d "self" = none ∧
    ∀ v, PyDict.get? d "jwk" = some v → ∃ k, EmbeddedKey E v k
  /-- a `kid` in the headers is only overridden by a key that has one -/
  kid : ∀ k ∈ keys, k.kid.truthy = true ∨ ((Merged p (members u) "kid").getD .none).truthy = false
  kids : ∀ k ∈ keys, k.kid.jsonable = true ∧ k.kid.pyEq k.kid = true
  own : ∀ kid, ∀ k ∈ keys, SignSuitable a name kid k → OwnKey k a
  soft : ∀ kid input sig, ∀ k ∈ keys, Suitable a name kid k → ¬ Accepts E k input sig a →
    SoftFail E a input sig k

end Verif.Spec
