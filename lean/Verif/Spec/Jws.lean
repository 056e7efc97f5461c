import Verif.Model.Jws
/-
Specification of JWS verification, written without the functions of `Model/Jws`: which algorithm
names there are, which key types they want, and what it means that a key accepts a signature.
(It shares with the model the data types, the library interface and `NistCurve.verify`, which
`C53_verify` shows to be the ECDSA equation.)
-/

namespace Verif.Spec
open Verif

/-- The twelve signature algorithms of RFC 7518 section 3.1 and their meaning. -/
inductive SupportedAlg : String → SigAlg → Prop
  | HS256 : SupportedAlg "HS256" (.hs .sha256)
  | HS384 : SupportedAlg "HS384" (.hs .sha384)
  | HS512 : SupportedAlg "HS512" (.hs .sha512)
  | RS256 : SupportedAlg "RS256" (.rs .sha256)
  | RS384 : SupportedAlg "RS384" (.rs .sha384)
  | RS512 : SupportedAlg "RS512" (.rs .sha512)
  | ES256 : SupportedAlg "ES256" (.es .sha256)
  | ES384 : SupportedAlg "ES384" (.es .sha384)
  | ES512 : SupportedAlg "ES512" (.es .sha512)
  | PS256 : SupportedAlg "PS256" (.ps .sha256)
  | PS384 : SupportedAlg "PS384" (.ps .sha384)
  | PS512 : SupportedAlg "PS512" (.ps .sha512)

/-- The two spellings, as text or bytes. -/
def Spelled (lo up : String) (kty : PyVal) : Prop :=
  kty = .str lo ∨ kty = .str up ∨ kty = .bytes (utf8Encode lo) ∨ kty = .bytes (utf8Encode up)

/-- The key type an algorithm wants. -/
def TypeFor : SigAlg → PyVal → Prop
  | .hs _ => Spelled "oct" "OCT"
  | .rs _ => Spelled "rsa" "RSA"
  | .ps _ => Spelled "rsa" "RSA"
  | .es _ => Spelled "ec" "EC"

/-- The key is an instance of `ECKey`. -/
def IsEc (k : Key) : Prop := ∃ crv x y d c, k.mat = .ec crv x y d c

/-- The public point that ECDSA verification uses.  The last three cases are keys that are not
`ECKey` objects: an empty `key` attribute counts as the neutral element. -/
def PubPoint (k : Key) (P : EPt) : Prop :=
  (∃ crv x y d c i j, k.mat = .ec crv x y d c ∧ x.asInt? = some i ∧ y.asInt? = some j ∧
    i ≠ 0 ∧ j ≠ 0 ∧ P = some (i, j)) ∨
  (¬ IsEc k ∧ ∃ v, k.key = .val v ∧
    ((v.truthy = false ∧ P = none) ∨
     (∃ a b l, v = .bytes (a :: b :: l) ∧ P = some ((a.toNat : Int), (b.toNat : Int))) ∨
     (∃ a b l i j, v = .list (a :: b :: l) ∧ a.asInt? = some i ∧ b.asInt? = some j ∧
        P = some (i, j))))

/-- The curve that goes with the digest. -/
def CurveFor : HashAlg → NistCurve → Prop
  | .sha384, C => nistCurve 384 = .ok C
  | .sha512, C => nistCurve 521 = .ok C
  | _, C => nistCurve 256 = .ok C

/-- Key `k` accepts `sig` as a signature over `input`. -/
def Accepts (E : Env) (k : Key) (input sig : Bytes) : SigAlg → Prop
  | .hs h => ¬ IsEc k ∧ ∃ secret, k.key = .val (.bytes secret) ∧ sig = E.H.hmac h secret input
  | .rs h => ¬ IsEc k ∧ ∃ r, k.key = .rsa r ∧ E.R.verify15 h r input sig = .ok true
  | .ps h => ¬ IsEc k ∧ ∃ r, k.key = .rsa r ∧ E.R.verifyPss h r input sig = .ok true
  | .es h => ∃ C P, CurveFor h C ∧ PubPoint k P ∧
      C.verify (bytesToNat (E.H.hash h input)) sig P = .ok true

/-- A spelling of "none". -/
def NoneName (v : PyVal) : Prop := v = .none ∨ ∃ s, v = .str s ∧ pyLower s = "none"

/-- The `kid` asked for: the object's own setting has precedence over the token header. -/
def WantedKid (own hdr : PyDict) (kid : PyVal) : Prop :=
  PyDict.get? own "kid" = some kid ∨
  (PyDict.get? own "kid" = none ∧ PyDict.get? hdr "kid" = some kid) ∨
  (PyDict.get? own "kid" = none ∧ PyDict.get? hdr "kid" = none ∧ kid = .none)

/-- A key that verification may try: right type, right `kid` if one is wanted, and no conflicting
`alg`. -/
def Suitable (a : SigAlg) (name : String) (kid : PyVal) (k : Key) : Prop :=
  TypeFor a k.kty ∧ (kid.truthy = true → kid.pyEq k.kid = true) ∧
  (k.alg.truthy = true → k.alg = .str name)

/-- The token text and its decoded parts: `header '.' payload '.' signature`. -/
structure Token (jws : Bytes) (s0 s1 : Bytes) (hdr : PyVal) (payload sig : Bytes) : Prop where
  text : ∃ s2, jws = s0 ++ 46 :: s1 ++ 46 :: s2 ∧ b64d s2 = .ok sig ∧ (46 : UInt8) ∉ s2
  no_dot : (46 : UInt8) ∉ s0 ∧ (46 : UInt8) ∉ s1
  header : ∃ hb hs, b64d s0 = .ok hb ∧ utf8Decode hb = .ok hs ∧ jsonLoads hs = .ok hdr
  payload : b64d s1 = .ok payload

/-- The bytes as text, if they are UTF-8. -/
def AsText (p : Bytes) (v : PyVal) : Prop :=
  (∃ s, p = utf8Encode s ∧ v = .str s) ∨ ((∀ s, p ≠ utf8Encode s) ∧ v = .bytes p)

/-- `json.loads` of text or bytes has outcome `r`. -/
def Parses (jb : Bytes → PyM PyVal) (v : PyVal) (r : PyM PyVal) : Prop :=
  (∃ s, v = .str s ∧ jsonLoads s = r) ∨ (∃ b, v = .bytes b ∧ jb b = r)

/-- `cty` allows JSON: absent or "jwt" in any letter case. -/
def CtyMayBeJson (h : PyDict) : Prop :=
  PyDict.get? h "cty" = none ∨ ∃ c, PyDict.get? h "cty" = some (.str c) ∧ pyLower c = "jwt"

/-- `cty` is something else with a `lower` method. -/
def CtyPlain (h : PyDict) : Prop :=
  (∃ c, PyDict.get? h "cty" = some (.str c) ∧ pyLower c ≠ "jwt") ∨
  ∃ b, PyDict.get? h "cty" = some (.bytes b)

/-- The message a payload stands for: parsed JSON if allowed and possible, else text, else bytes. -/
def Message (jb : Bytes → PyM PyVal) (hdr : PyDict) (p : Bytes) (m : PyVal) : Prop :=
  ∃ t, AsText p t ∧
    ((CtyPlain hdr ∧ m = t) ∨
     (CtyMayBeJson hdr ∧ (Parses jb t (.ok m) ∨
       ∃ e, Parses jb t (.error e) ∧ e.isValueError = true ∧ m = t)))

/-- The keys verification may use: the caller's list; without one, the key object set in the
constructor. -/
def EffKeys (o : Jwx) (keys l : List Key) : Prop :=
  (keys ≠ [] ∧ l = keys) ∨ (keys = [] ∧ ∃ k, o.jwk = some (.key k) ∧ l = [k])

/-- The attempt with key `k` raises one of the two exceptions that the loop swallows. -/
def SoftFail (E : Env) (a : SigAlg) (input sig : Bytes) (k : Key) : Prop :=
  ∃ e, (k.getKey false).bind (a.verify E input sig) = .error e ∧
    (e = .badSignature ∨ e = .indexError)

/-- `k` is the first suitable key that accepts, no earlier suitable one having stopped the loop. -/
def FirstAccepting (E : Env) (a : SigAlg) (name : String) (kid : PyVal) (input sig : Bytes)
    (l : List Key) (k : Key) : Prop :=
  ∃ pre post, l = pre ++ k :: post ∧ Suitable a name kid k ∧ Accepts E k input sig a ∧
    ∀ x ∈ pre, Suitable a name kid x → SoftFail E a input sig x

/-! ### Signing -/

/-- Which algorithm `sign_compact` uses: the object's own; without one, that of the only key given;
otherwise "none". -/
def AlgFor (o : Jwx) (keys : List Key) (alg : PyVal) : Prop :=
  (PyDict.get? o.dict "alg" = some alg ∧ alg.truthy = true) ∨
  (PyDict.get? o.dict "alg" = none ∧ ∃ k, keys = [k] ∧ k.alg.truthy = true ∧ alg = k.alg) ∨
  (((∃ v, PyDict.get? o.dict "alg" = some v ∧ v.truthy = false) ∨
    (PyDict.get? o.dict "alg" = none ∧ ¬ ∃ k, keys = [k] ∧ k.alg.truthy = true)) ∧
   alg = .str "none")

/-- The `kid` a signing key must have, if any: the object's, or that of the token it holds. -/
def SignKid (o : Jwx) (kid : PyVal) : Prop :=
  PyDict.get? o.dict "kid" = some kid ∨
  (PyDict.get? o.dict "kid" = none ∧
    ((o.jwt = none ∧ kid = .none) ∨
     ∃ j hdr, o.jwt = some j ∧ j.headers = .dict hdr ∧ kid = (PyDict.get? hdr "kid").getD .none))

/-- A key that signing may use. -/
def SignSuitable (a : SigAlg) (name : String) (kid : PyVal) (k : Key) : Prop :=
  Suitable a name kid k ∧ (k.use.truthy = true → k.use = .str "sig")

/-- `k` is the first key that signing may use. -/
def FirstSigner (a : SigAlg) (name : String) (kid : PyVal) (l : List Key) (k : Key) : Prop :=
  ∃ pre post, l = pre ++ k :: post ∧ SignSuitable a name kid k ∧
    ∀ x ∈ pre, ¬ SignSuitable a name kid x

/-- The header of a token signed with key `k`: the given members, the algorithm, the key's `kid` if
it has one and the object's `typ` if it has one. -/
def SignedHeader (o : Jwx) (prot : PyDict) (alg : PyVal) (k : Option Key) (hdr : PyDict) : Prop :=
  PyDict.get? hdr "alg" = some alg ∧
  PyDict.get? hdr "kid" = (match k with
    | some k => if k.kid.truthy then some k.kid else PyDict.get? prot "kid"
    | none => PyDict.get? prot "kid") ∧
  PyDict.get? hdr "typ" = (match PyDict.get? o.dict "typ" with
    | some t => some t
    | none => PyDict.get? prot "typ") ∧
  ∀ m, m ≠ "alg" → m ≠ "kid" → m ≠ "typ" → PyDict.get? hdr m = PyDict.get? prot m

/-- The key type (lower and upper case) that goes with an algorithm name, by its prefix. -/
def Family (alg lo up : String) : Prop :=
  pyLower alg ≠ "none" ∧
  ((((∃ t, alg = "RS" ++ t) ∨ ∃ t, alg = "PS" ++ t) ∧ lo = "rsa" ∧ up = "RSA") ∨
   (((∃ t, alg = "HS" ++ t) ∨ ∃ t, alg = "A" ++ t) ∧ lo = "oct" ∧ up = "OCT") ∨
   (((∃ t, alg = "ES" ++ t) ∨ ∃ t, alg = "ECDH-ES" ++ t) ∧ lo = "ec" ∧ up = "EC"))

/-- The documented filter of `pick_keys`. -/
def Picked (lo up alg use : String) (kid : PyVal) (k : Key) : Prop :=
  Spelled lo up k.kty ∧ (kid.truthy = true → kid.pyEq k.kid = true) ∧
  (use ≠ "" → k.use.truthy = true → k.use = .str use) ∧
  (k.alg.truthy = true → k.alg = .str alg)

/-- The public half of an elliptic curve key belongs to the private half; a secret is not an `ECKey` object
relabelled as symmetric; nothing is asked of an RSA key. -/
def OwnKey (k : Key) : SigAlg → Prop
  | .hs _ => ¬ IsEc k
  | .rs _ | .ps _ => True
  | .es h => ∃ C crv d i j c, CurveFor h C ∧ k.mat = .ec crv (.int i) (.int j) (.int d) c ∧
      i ≠ 0 ∧ j ≠ 0 ∧ C.publicKeyFor (d.fmod C.N).toNat = some (i, j)

end Verif.Spec
