import Verif.Model.Jws
import Verif.Model.Extra
import Verif.Model.AesGcm
import Verif.Model.AesKeyWrap
/-
Model of /repo/src/jwkest/jwe.py.

Methods that change the object return the outcome together with the object afterwards.  `cek`/`iv`
arguments that are `""`, `b""` or `None` are all `[]`.  `str` tokens are given by their UTF-8 bytes.
Randomness is an argument (`JweRnd`).  Not modelled: logging, the unused helpers `int2bigendian`,
`party_value`, `_hash_input`, `cipher_filter`, `aes_enc`, `aes_dec`, `keysize`, `ENC2ALG`
(`jwe.py:165-232`), and extra keyword arguments of `encrypt` other than `kid`.
-/

namespace Verif

/-- The random values drawn by one call of `encrypt` or `decrypt`. -/
structure JweRnd where
  /-- `get_random_bytes(n)` for the content key, `jwe.py:331, 335`. -/
  key : Nat → Bytes
  /-- `get_random_bytes(n)` for the initialization vector, `jwe.py:332, 336`. -/
  iv : Nat → Bytes
  /-- The randomness of the RSA encryption padding. -/
  rsa : Nat
  /-- The sentinel of the `i`-th PKCS#1 v1.5 decryption, `jwe.py:137`. -/
  sentinel : Nat → Bytes
  /-- `get_random_bytes(16)` for apu and apv, `jwe.py:591, 595`. -/
  apu : Bytes
  /-- See `apu`. -/
  apv : Bytes
  /-- The random bits of the ephemeral EC key, `jwe.py:607`. -/
  eph : Nat

/-! ### RSA key encryption -/

/-- The values of the parameter `padding`, `jwe.py:116-127`. -/
inductive RsaPad
  | pkcs1 | oaep | oaep256
deriving DecidableEq, Repr

/-- `RSAEncrypter(with_digest).encrypt(msg, key, padding)`, `jwe.py:116-128`. -/
def rsaEncrypterEncrypt (E : Env) (withDigest : Bool) (rnd : Nat) (msg : Bytes) (key : KeyArg)
    (pad : RsaPad) : PyM Bytes := do
  let k ← rsaKeyArg key
  match pad with
  | .pkcs1 => E.R.enc15 k rnd (if withDigest then msg ++ E.H.hash .sha1 msg else msg)
  | .oaep => E.R.encOaep .sha1 k rnd msg
  | .oaep256 => E.R.encOaep .sha256 k rnd msg

/-- The treatment of the PKCS#1 v1.5 plaintext, `jwe.py:139-149`.  `text[-20:]` of a text shorter
than 20 bytes is the whole text. -/
def rsaCheckText (E : Env) (withDigest : Bool) (sentinel text : Bytes) : PyM Bytes :=
  if withDigest then
    let n := text.length - 20
    if E.H.hash .sha1 (text.take n) = text.drop n then .ok (text.take n)
    else .error .decryptionFailed
  else if text = sentinel then .error .decryptionFailed
  else .ok text

/-- `RSAEncrypter(with_digest).decrypt(ciphertext, key, padding)`, `jwe.py:130-159`. -/
def rsaEncrypterDecrypt (E : Env) (withDigest : Bool) (sentinel ct : Bytes) (key : KeyArg)
    (pad : RsaPad) : PyM Bytes := do
  let k ← rsaKeyArg key
  match pad with
  | .pkcs1 => do
    let text ← E.R.dec15 k ct
    rsaCheckText E withDigest sentinel (text.getD sentinel)
  | .oaep => E.R.decOaep .sha1 k ct
  | .oaep256 => E.R.decOaep .sha256 k ct

/-! ### Tables -/

/-- `SUPPORTED["alg"]`, `jwe.py:235-236`. -/
def jweSupportedAlg : List String :=
  ["RSA1_5", "RSA-OAEP", "RSA-OAEP-256", "A128KW", "A192KW", "A256KW",
   "ECDH-ES", "ECDH-ES+A128KW", "ECDH-ES+A192KW", "ECDH-ES+A256KW"]

/-- `SUPPORTED["enc"]`, `jwe.py:237-238`. -/
def jweSupportedEnc : List String :=
  ["A128CBC-HS256", "A192CBC-HS384", "A256CBC-HS512", "A128GCM", "A192GCM", "A256GCM"]

/-- `v in l` for a list of strings. -/
def strIn (v : PyVal) (l : List String) : Bool :=
  match v with
  | .str s => l.contains s
  | _ => false

/-- `alg2keytype(alg)`, `jwe.py:242-250`. -/
def jweAlg2keytype (alg : PyVal) : PyM (Option String) :=
  match alg with
  | .str s =>
    if startsWith s "RSA" then .ok (some "RSA")
    else if startsWith s "A" then .ok (some "oct")
    else if startsWith s "ECDH" then .ok (some "EC")
    else .ok none
  | .bytes _ => .error .typeError
  | _ => .error .attributeError

/-- `KEYLEN`, `jwe.py:90-97`. -/
def keylenTable : List (String × Nat) :=
  [("A128GCM", 128), ("A192GCM", 192), ("A256GCM", 256),
   ("A128CBC-HS256", 256), ("A192CBC-HS384", 384), ("A256CBC-HS512", 512)]

/-- `KEYLEN[enc]` with the `KeyError` turned into an `Exception`, `jwe.py:624-628, 663-666`. -/
def keylen (enc : PyVal) : PyM (Nat × Bytes) :=
  match enc with
  | .str s => match List.lookup s keylenTable with
    | some n => .ok (n, utf8Encode s)
    | none => .error .generic
  | .list _ | .dict _ => .error .typeError
  | _ => .error .generic

/-- `ENCALGLEN1` (iv of 12 bytes) and `ENCALGLEN2` (iv of 16 bytes), `jwe.py:255-265`. -/
def encAlgLen : List (String × Nat × Nat) :=
  [("A128GCM", 16, 12), ("A192GCM", 24, 12), ("A256GCM", 32, 12),
   ("A128CBC-HS256", 32, 16), ("A192CBC-HS384", 48, 16), ("A256CBC-HS512", 64, 16)]

/-! ### JWEnc -/

/-- `self.part[i]`. -/
def Jwt.partAt (j : Jwt) (i : Nat) : PyM Bytes :=
  match j.part[i]? with
  | some p => .ok p
  | none => .error .indexError

/-- `b64_protected_header()`, `jwe.py:269-270`. -/
def Jwt.b64ProtectedHeader (j : Jwt) : PyM Bytes :=
  match j.b64part[0]? with
  | some p => .ok p
  | none => .error .indexError

/-- `b64_encode_header()`, `jwe.py:299-300`. -/
def Jwt.b64EncodeHeader (j : Jwt) : PyM Bytes := b64encodeItem j.headers

/-- `JWEnc.is_jwe()`, `jwe.py:302-318`. -/
def Jwt.isJwe (j : Jwt) : PyM Bool := do
  let byTyp ← (if ← j.headers.contains "typ" then do
      let t ← j.headers.getItem "typ"
      let t ← t.lower
      .ok (t == .str "jwe")
    else .ok false)
  if byTyp then .ok true
  else
    let both ← (if ← j.headers.contains "alg" then j.headers.contains "enc" else .ok false)
    if both then
      let alg ← j.headers.getItem "alg"
      if strIn alg jweSupportedAlg then
        let enc ← j.headers.getItem "enc"
        .ok (strIn enc jweSupportedEnc)
      else .ok false
    else .ok false

/-! ### JWe: content encryption -/

/-- `_generate_key_and_iv(encalg, cek, iv)`, `jwe.py:325-344`. -/
def generateKeyAndIv (rnd : JweRnd) (encalg : PyVal) (cek iv : Bytes) : PyM (Bytes × Bytes) :=
  if cek ≠ [] ∧ iv ≠ [] then .ok (cek, iv)
  else match encalg with
    | .str s => match List.lookup s encAlgLen with
      | some (kl, il) => .ok (if cek ≠ [] then cek else rnd.key kl, if iv ≠ [] then iv else rnd.iv il)
      | none => .error .generic
    | .list _ | .dict _ => .error .typeError
    | _ => .error .generic

/-- `bytes` expected. -/
def wantBytes : PyVal → PyM Bytes
  | .bytes b => .ok b
  | _ => .error .typeError

/-- `enc in [...]`: which of the two families, `jwe.py:361-369, 385-396`. -/
def isGcmEnc (enc : PyVal) : Bool := strIn enc ["A192GCM", "A128GCM", "A256GCM"]

@[inherit_doc isGcmEnc]
def isCbcEnc (enc : PyVal) : Bool := strIn enc ["A128CBC-HS256", "A192CBC-HS384", "A256CBC-HS512"]

/-- `enc_setup(enc_alg, msg, auth_data, key, iv)`, `jwe.py:349-371`: ciphertext and tag. -/
def encSetup (E : Env) (rnd : JweRnd) (enc msg : PyVal) (aad key iv : Bytes) :
    PyM (Bytes × Bytes) := do
  let (key, iv) ← generateKeyAndIv rnd enc key iv
  if isGcmEnc enc then
    let g ← Gcm.new E.C (bytesToNat key)
    let m ← wantBytes msg
    let (ct, tag) ← (g.encrypt E.C (bytesToNat iv) m aad).1
    .ok (ct, longToBytes tag)
  else if isCbcEnc enc then do
    let m ← wantBytes msg
    aesCbcHmacEncrypt E.C E.H key iv aad m
  else .error .notSupportedAlgorithm

/-- `_decrypt(enc, key, ctxt, auth_data, iv, tag)`, `jwe.py:373-396`. -/
def jweDecrypt (E : Env) (enc : PyVal) (key ctxt aad iv tag : Bytes) : PyM Bytes :=
  if isGcmEnc enc then do
    let g ← Gcm.new E.C (bytesToNat key)
    g.decrypt E.C (bytesToNat iv) ctxt (bytesToNat tag) aad
  else if isCbcEnc enc then aesCbcHmacDecrypt E.C E.H key iv aad ctxt tag
  else .error .generic

/-! ### The object -/

/-- A `JWE` object: a `JWx` whose entry `epk` can be an `ECKey` object, kept in the field `epk`
(a plain value given for `epk` is in `dict`). -/
structure Jwe extends Jwx where
  epk : Option Key := none
deriving DecidableEq

/-- `JWE.args` before and after `jwk`, `jwe.py:729-730`. -/
def jweArgs1 : List String := ["alg", "enc", "epk", "zip", "jku"]
@[inherit_doc jweArgs1]
def jweArgs2 : List String := ["x5u", "x5t", "x5c", "kid", "typ", "cty", "apu", "crit"]

/-- `JWE_SYM.args` and `JWE_EC.args` without `jwk`, `jwe.py:400-401, 578-579`, `jws.py:244-245`. -/
def symArgsJwe : List String :=
  ["alg", "jku", "x5u", "x5t", "x5c", "kid", "typ", "cty", "crit", "enc"]

/-- `JWE(msg, **kw)` for plain keyword values, `jws.py:271-297`. -/
def Jwe.new (E : Env) (msg : PyVal) (kw : PyDict) : PyM Jwe :=
  if PyDict.has kw "self" || PyDict.has kw "msg" then .error .typeError
  else
    let r := Jwx.initBody E jweArgs1 jweArgs2 none msg (stripInit kw)
    r.1.map fun _ => { r.2 with epk := none }

/-- `JWE(msg, jwk=key, **kw)` with a `Key` object (`jws.py:292-293`). -/
def Jwe.newWithKey (E : Env) (msg : PyVal) (kw : PyDict) (key : Key) : PyM Jwe :=
  (Jwe.new E msg (kw ++ [("jwk", .none)])).map fun o => { o with jwk := some (.key key) }

/-- `JWE(msg, epk=key, **kw)` with an `ECKey` object. -/
def Jwe.newWithEpk (E : Env) (msg : PyVal) (kw : PyDict) (epk : Key) : PyM Jwe :=
  (Jwe.new E msg (kw ++ [("typ", kwGet kw "typ" .none)])).map fun o => { o with epk := some epk }

/-- `JWE_RSA(self.msg, **self._dict)`, `jwe.py:792`. -/
def Jwe.rsaEncrypter (o : Jwe) : Jwe :=
  { msg := o.msg, dict := (jweArgs1 ++ jweArgs2).foldl (initStep o.dict) [], jwk := o.jwk,
    epk := o.epk }

/-- `JWE_SYM(self.msg, **self._dict)` / `JWE_EC(**self._dict)`, `jwe.py:794, 801`.  (`JWE_EC`
receives the message in `enc_setup`, `jwe.py:584, 802-803`.) -/
def Jwe.symEncrypter (o : Jwe) : Jwe :=
  { msg := o.msg, dict := symArgsJwe.foldl (initStep o.dict) [], jwk := o.jwk }

/-- The parameters with a true value, in order, `jws.py:320-328`. -/
def trueParams (d : PyDict) (args : List String) : PyDict :=
  args.filterMap fun a => match PyDict.get? d a with
    | some v => if v.truthy then some (a, v) else none
    | none => none

/-- `_header["jwk"] = self["jwk"].serialize()`, `jws.py:330-331`. -/
def jwkHeader : Option JKey → PyM PyDict
  | none => .ok []
  | some (.key k) => (k.serializeDflt).map fun v => [("jwk", v)]
  | some (.other _) => .error .attributeError

/-- The test of `kid`, `jws.py:335-339`. -/
def kidIsText : Option PyVal → PyM Unit
  | none | some (.str _) => .ok ()
  | some _ => .error .headerError

/-- `headers()` of a `JWE_RSA` object without its `epk` object, `jws.py:317-341`. -/
def Jwe.headers (o : Jwe) : PyM PyDict := do
  let jw ← jwkHeader o.jwk
  kidIsText (PyDict.get? o.dict "kid")
  .ok (trueParams o.dict jweArgs1 ++ jw ++ trueParams o.dict jweArgs2)

/-- `JWEnc(**args)` where an entry may be a `Key` object, which `b2s_conv` refuses with `ValueError`
(`jwt.py:21-31`).  (A plain value under `jwk` is put last; in Python it stands where it was
inserted.) -/
def jwencNew (args : PyDict) (jwk : Option JKey) (epk : Option Key) : PyM Jwt :=
  if epk.isSome then .error .valueError
  else match jwk with
    | none => Jwt.init args
    | some (.key _) => .error .valueError
    | some (.other v) => Jwt.init (PyDict.set args "jwk" v)

/-- `_args["kid"] = kwargs["kid"]` if given, `jwe.py:414-418, 687-691`. -/
def withKid (d : PyDict) : Option PyVal → PyDict
  | some v => PyDict.set d "kid" v
  | none => d

/-! ### JWE_SYM -/

/-- The key encryption key, `jwe.py:424-432, 460-464`: bytes.  (`intarr2str` of anything that the
`encryption_key` of another class returns ends in a `TypeError` of `AES.new`.) -/
def symKek : KeyArg → PyM Bytes
  | .obj (.val (.bytes b)) => .ok b
  | _ => .error .typeError

/-- `JWE_SYM.encrypt(key, iv, cek, kid=...)`, `jwe.py:403-443`. -/
def Jwe.symEncrypt (E : Env) (o : Jwe) (rnd : JweRnd) (key : KeyArg) (cek iv : Bytes)
    (kid : Option PyVal) : PyM String := do
  let args := withKid o.dict kid
  let jwe ← jwencNew args o.jwk none
  let enc ← PyVal.getItem (.dict args) "enc"
  let (cek, iv) ← generateKeyAndIv rnd enc cek iv
  let kek ← symKek key
  let jek ← aesWrapKey E.C kek cek
  let msg ← strEncode o.msg
  let hdr ← jwe.b64EncodeHeader
  let (ctxt, tag) ← encSetup E rnd enc (.bytes msg) hdr cek iv
  jwe.pack [.bytes jek, .bytes iv, .bytes ctxt, .bytes tag]

/-- Truth value of the argument `key` (a non-empty tuple is true). -/
def keyTrue : Option KeyArg → Bool
  | none => false
  | some (.obj o) => o.truthy
  | some (.point _ _) => true

/-- `JWE_SYM.decrypt(token, key, cek)`, `jwe.py:445-476`; `key` is `None` or what `encryption_key`
returned.  The parameter `zip` is never stored in a `JWE_SYM` object (it is not in `args`). -/
def symDecrypt (E : Env) (j : Jwt) (key : Option KeyArg) (cek : Bytes) : PyM Bytes := do
  let cek ← (if keyTrue key = false ∧ cek = [] then .error .missingKey
    else if j.part.length ≠ 5 then .error .wrongNumberOfParts
    else if cek ≠ [] then .ok cek
    else do
      let jek ← j.partAt 1
      let kek ← symKek (key.getD (.obj (.val .none)))
      aesUnwrapKey E.C kek jek)
  let enc ← j.headers.getItem "enc"
  let ctxt ← j.partAt 3
  let hdr ← j.b64ProtectedHeader
  let iv ← j.partAt 2
  let tag ← j.partAt 4
  jweDecrypt E enc cek ctxt hdr iv tag

/-! ### JWE_RSA -/

/-- The padding selected by `alg`, `jwe.py:511-521, 547-557`. -/
def rsaPadOf (alg : PyVal) : PyM RsaPad :=
  if alg = .str "RSA-OAEP" then .ok .oaep
  else if alg = .str "RSA-OAEP-256" then .ok .oaep256
  else if alg = .str "RSA1_5" then .ok .pkcs1
  else .error .notSupportedAlgorithm

/-- The compression step of `JWE_RSA.encrypt`, `jwe.py:494-499`. -/
def Jwe.zipMsg (E : Env) (o : Jwe) : PyM PyVal :=
  let m := asBytes o.msg
  match PyDict.get? o.dict "zip" with
  | none => .ok m
  | some z =>
    if z = .str "DEF" then (wantBytes m).map fun b => .bytes (E.Z.compress b)
    else .error .parameterError

/-- `JWE_RSA.encrypt(key, iv, cek)`, `jwe.py:483-528`: the token and the value stored as
`self["cek"]`. -/
def Jwe.rsaEncrypt (E : Env) (o : Jwe) (withDigest : Bool) (rnd : JweRnd) (key : KeyArg)
    (cek iv : Bytes) : PyM (String × Bytes) := do
  let msg ← o.zipMsg E
  let enc ← PyVal.getItem (.dict o.dict) "enc"
  let (cek', iv) ← generateKeyAndIv rnd enc cek iv
  let alg ← PyVal.getItem (.dict o.dict) "alg"
  let ek : PyVal ← (if cek ≠ [] then .ok (.str "") else do
    let pad ← rsaPadOf alg
    let b ← rsaEncrypterEncrypt E withDigest rnd.rsa cek' key pad
    .ok (.bytes b))
  let h ← o.headers
  let jwe ← jwencNew h none o.epk
  let hdr ← jwe.b64EncodeHeader
  let (ctxt, tag) ← encSetup E rnd enc msg hdr cek' iv
  let t ← jwe.pack [ek, .bytes iv, .bytes ctxt, .bytes tag]
  .ok (t, cek')

/-- `JWE_RSA.decrypt(token, key, cek)`, `jwe.py:530-574`: the message and the value stored as
`self["cek"]`.  The key `None` only occurs together with a `cek`. -/
def rsaDecrypt (E : Env) (withDigest : Bool) (sentinel : Bytes) (j : Jwt) (key : Option KeyArg)
    (cek : Bytes) : PyM (Bytes × Bytes) := do
  let jek ← j.partAt 1
  let alg ← j.headers.getItem "alg"
  let cek ← (if cek ≠ [] then .ok cek else do
    let pad ← rsaPadOf alg
    rsaEncrypterDecrypt E withDigest sentinel jek (key.getD (.obj (.val .none))) pad)
  let enc ← j.headers.getItem "enc"
  if strIn enc jweSupportedEnc = false then .error .notSupportedAlgorithm
  else do
    let ctxt ← j.partAt 3
    let hdr ← j.b64ProtectedHeader
    let iv ← j.partAt 2
    let tag ← j.partAt 4
    let msg ← jweDecrypt E enc cek ctxt hdr iv tag
    let zip ← (if ← j.headers.contains "zip" then do
        let z ← j.headers.getItem "zip"
        .ok (z == .str "DEF")
      else .ok false)
    let msg ← (if zip then E.Z.decompress msg else .ok msg)
    .ok (msg, cek)

/-! ### JWE_EC -/

/-- `b64d(v)` of any value: `rstrip(b"=")` wants bytes. -/
def b64dVal : PyVal → PyM Bytes
  | .bytes b => b64d b
  | .str _ => .error .typeError
  | _ => .error .attributeError

/-- `b64d(kwargs[name])`, or a random value if absent, `jwe.py:588-595`. -/
def partyParam (kw : PyDict) (name : String) (dflt : Bytes) : PyM Bytes :=
  match PyDict.get? kw name with
  | some v => b64dVal v
  | none => .ok dflt

/-- `self.name` read through `__getattr__`, `jws.py:308-312`. -/
def attrOf (d : PyDict) (name : String) : PyM PyVal :=
  match PyDict.get? d name with
  | some v => .ok v
  | none => .error .attributeError

/-- `key.crv`, `key.x`, `key.y`, `key.d`, `key.curve`; other key classes lack `crv`. -/
def ecAttrs (k : Key) : PyM (PyVal × PyVal × PyVal × PyVal × KObj) :=
  match k.mat with
  | .ec crv x y d c => .ok (crv, x, y, d, c)
  | _ => .error .attributeError

/-- A scalar as `_signed_bin` reads it (`elliptic.py:239-247`).  (Negative integers are outside the
model and treated as a `TypeError`.) -/
def dhScalar (d : PyVal) : PyM Nat :=
  match d.asInt? with
  | some i => if i < 0 then .error .typeError else .ok i.toNat
  | none => .error .typeError

/-- `ecdh_derive_key(curve, d, (x, y), apu, apv, alg, dk_len)` of any values, `extra.py:162-183`.
`none` for apu or apv is the text `""`, which cannot be concatenated with bytes. -/
def ecdhDerive (E : Env) (curve : KObj) (d x y : PyVal) (apu apv : Option Bytes) (alg : Bytes)
    (dkLen : Nat) : PyM Bytes :=
  match curve with
  | .curve C => do
    let d ← dhScalar d
    let pub ← esPub (.point x y)
    let z ← C.dhZ d pub
    match apu, apv with
    | some apu, some apv => ecdhDeriveFromZ E.H z apu apv alg dkLen
    | _, _ => .error .typeError
  | _ => .error .attributeError

/-- `_pre, _post = alg.split("+"); klen = int(_post[1:4])` for the three wrapping algorithms,
`jwe.py:632-634, 672-675`: the text `_post` and the length. -/
def ecKwAlg (alg : PyVal) : Option (Bytes × Nat) :=
  if alg = .str "ECDH-ES+A128KW" then some (utf8Encode "A128KW", 128)
  else if alg = .str "ECDH-ES+A192KW" then some (utf8Encode "A192KW", 192)
  else if alg = .str "ECDH-ES+A256KW" then some (utf8Encode "A256KW", 256)
  else none

/-- `kwargs[name] if name in kwargs and kwargs[name] else None`, `jwe.py:615-619`. -/
def storedBytes (d : PyDict) (name : String) : Bytes :=
  match PyDict.get? d name with
  | some (.bytes b) => b
  | _ => []

/-- The ephemeral key, `jwe.py:603-607`.  `ECKey(value)` takes the value for `kty` and so is a key
without curve, which cannot be serialized (`jwe.py:612`). -/
def Jwe.ephemeral (o : Jwe) (rnd : JweRnd) (curve : NistCurve) : PyM Key :=
  match o.epk with
  | some k => match k.mat with
    | .ec .. => .ok k
    | _ => .error .serializationNotPossible
  | none =>
    if PyDict.has o.dict "epk" then .error .serializationNotPossible
    else do
      let k ← ecKeyNew [] (.val .none) (.val .none) 0
      ecLoadKey k (.str "") (.curve curve) rnd.eph

/-- `JWE_EC.enc_setup(msg, auth_data, key, **kwargs)`, `jwe.py:581-641`; `kw` is the `_dict` of the
`JWE` object, `o` the `JWE` object itself (for `epk`), `args` the `_dict` of the `JWE_EC` object.
Result: cek, encrypted key, iv, and the parameters apu, apv, epk. -/
def Jwe.ecEncSetup (E : Env) (o : Jwe) (args : PyDict) (rnd : JweRnd) (key : Key) :
    PyM (Bytes × PyVal × Bytes × PyDict) := do
  let kw := o.dict
  let apu ← partyParam kw "apu" rnd.apu
  let apv ← partyParam kw "apv" rnd.apv
  let (crv, x, y, _, _) ← ecAttrs key
  let curve ← curveByVal crv
  let epk ← o.ephemeral rnd curve
  let ser ← epk.serialize false
  let params : PyDict := [("apu", .bytes (b64e apu)), ("apv", .bytes (b64e apv)), ("epk", ser)]
  let enc ← attrOf args "enc"
  let (cek, iv) ← generateKeyAndIv rnd enc (storedBytes kw "cek") (storedBytes kw "iv")
  let (_, _, _, ed, _) ← ecAttrs epk
  let alg := (PyDict.get? args "alg").getD .none
  if alg = .str "ECDH-ES" then do
    let (n, encB) ← keylen enc
    let cek ← ecdhDerive E (.curve curve) ed x y (some apu) (some apv) encB n
    .ok (cek, .str "", iv, params)
  else match ecKwAlg alg with
    | some (post, n) => do
      let kek ← ecdhDerive E (.curve curve) ed x y (some apu) (some apv) post n
      let ek ← aesWrapKey E.C kek cek
      .ok (cek, .bytes ek, iv, params)
    | none => .error .generic

/-- `JWE_EC.encrypt(key, iv, cek, encrypted_key=..., params=..., kid=...)`, `jwe.py:684-707`. -/
def Jwe.ecEncrypt (E : Env) (o : Jwe) (rnd : JweRnd) (cek : Bytes) (ek : PyVal) (iv : Bytes)
    (params : PyDict) (kid : Option PyVal) : PyM String := do
  let args := PyDict.update (withKid o.dict kid) params
  let jwe ← jwencNew args o.jwk none
  let enc ← PyVal.getItem (.dict args) "enc"
  let hdr ← jwe.b64EncodeHeader
  let (ctxt, tag) ← encSetup E rnd enc (asBytes o.msg) hdr cek iv
  jwe.pack [ek, .bytes iv, .bytes ctxt, .bytes tag]

/-- `"epk" not in headers or "crv" not in headers["epk"]`, `jwe.py:651-653`: the value of epk. -/
def headerEpk (h : PyVal) : PyM PyVal := do
  if ← h.contains "epk" then
    let e ← h.getItem "epk"
    if ← e.contains "crv" then .ok e else .error .generic
  else .error .generic

/-- `ECKey(**v)`, `jwe.py:655`. -/
def ecKeyOfHeader : PyVal → PyM Key
  | .dict d => ecKeyNew d (.val (kwGet d "key" .none)) (.val (kwGet d "curve" .none)) 0
  | _ => .error .typeError

/-- `b64d(self.headers[name].encode())` if present, `jwe.py:656-660`. -/
def headerParty (h : PyVal) (name : String) : PyM (Option Bytes) := do
  if ← h.contains name then
    let v ← h.getItem name
    match v with
    | .str s => (b64d (utf8Encode s)).map some
    | _ => .error .attributeError
  else .ok none

/-- `KEYLEN[self.headers["enc"]]`, `jwe.py:663-666`. -/
def headerKeylen (h : PyVal) : PyM (Nat × Bytes) :=
  match h.getItem "enc" with
  | .ok enc => keylen enc
  | .error e => if e = .keyError then .error .generic else .error e

/-- `JWE_EC.dec_setup(token, key)`, `jwe.py:643-682`: cek, iv, ciphertext, tag. -/
def ecDecSetup (E : Env) (j : Jwt) (key : Key) : PyM (Bytes × Bytes × Bytes × Bytes) := do
  let iv ← j.partAt 2
  let ctxt ← j.partAt 3
  let tag ← j.partAt 4
  let ev ← headerEpk j.headers
  let epub ← ecKeyOfHeader ev
  let apu ← headerParty j.headers "apu"
  let apv ← headerParty j.headers "apv"
  let alg ← j.headers.getItem "alg"
  let (_, ex, ey, _, ec) ← ecAttrs epub
  if alg = .str "ECDH-ES" then do
    let (n, encB) ← headerKeylen j.headers
    let (_, _, _, d, _) ← ecAttrs key
    let cek ← ecdhDerive E ec d ex ey apu apv encB n
    .ok (cek, iv, ctxt, tag)
  else match ecKwAlg alg with
    | some (post, n) => do
      let (_, _, _, d, _) ← ecAttrs key
      let kek ← ecdhDerive E ec d ex ey apu apv post n
      let jek ← j.partAt 1
      let cek ← aesUnwrapKey E.C kek jek
      .ok (cek, iv, ctxt, tag)
    | none => .error .generic

/-- `JWE_EC.decrypt(token)` after `dec_setup`, `jwe.py:709-725`. -/
def ecDecrypt (E : Env) (j : Jwt) (setup : Bytes × Bytes × Bytes × Bytes) : PyM Bytes := do
  let (cek, iv, ctxt, tag) := setup
  if cek = [] then .error .generic
  else do
    let enc ← j.headers.getItem "enc"
    let hdr ← j.b64ProtectedHeader
    jweDecrypt E enc cek ctxt hdr iv tag

/-! ### JWE -/

/-- The class selected by `alg`. -/
inductive JweKind
  | rsa | sym | ec
deriving DecidableEq, Repr

/-- `jwe.py:791-808, 862-875`. -/
def jweKind (alg : PyVal) : PyM JweKind :=
  match alg with
  | .str s =>
    if s = "RSA-OAEP" ∨ s = "RSA-OAEP-256" ∨ s = "RSA1_5" then .ok .rsa
    else if startsWith s "A" && endsWith s "KW" then .ok .sym
    else if startsWith s "ECDH-ES" then .ok .ec
    else .error .notSupportedAlgorithm
  | .bytes _ => .error .typeError
  | _ => .error .attributeError

/-- `encrypter["kid"] = key.kid`, `jwe.py:825-826`. -/
def Jwe.setKid (o : Jwe) (k : Key) : Jwe :=
  if k.kid.truthy then { o with dict := PyDict.set o.dict "kid" k.kid } else o

/-- The body of `JWE.encrypt` once the keys are picked, `jwe.py:790-836`: only the first key is ever
used.  Result: the token and the value stored as `self["cek"]`. -/
def Jwe.encryptWith (E : Env) (o : Jwe) (rnd : JweRnd) (alg : PyVal) (key : Key) (cek iv : Bytes)
    (kid : Option PyVal) : PyM (String × PyVal) := do
  match ← jweKind alg with
  | .rsa => do
    let k ← key.encryptionKey E alg true
    let (t, c) ← (o.rsaEncrypter.setKid key).rsaEncrypt E false rnd k cek iv
    .ok (t, .bytes c)
  | .sym => do
    let k ← key.encryptionKey E alg true
    let t ← (o.symEncrypter.setKid key).symEncrypt E rnd k cek iv kid
    .ok (t, .none)
  | .ec => do
    let (cek, ek, iv, params) ← o.ecEncSetup E o.symEncrypter.dict rnd key
    let enc ← attrOf o.dict "enc"
    let _ ← key.encryptionKey E (if enc.truthy then enc else alg) true
    let t ← (o.symEncrypter.setKid key).ecEncrypt E rnd cek ek iv params kid
    .ok (t, .none)

/-- `JWE.encrypt(keys, cek, iv, kid=...)`, `jwe.py:762-839`. -/
def Jwe.encrypt (E : Env) (o : Jwe) (rnd : JweRnd) (keys : List Key) (cek iv : Bytes := [])
    (kid : Option PyVal := none) : PyM String × Jwe :=
  let r : PyM (String × PyVal) := do
    let alg ← PyVal.getItem (.dict o.dict) "alg"
    let src ← o.keySource E keys
    let ks ← o.pickKeys jweAlg2keytype src "enc" (.str "")
    match ks with
    | [] => .error .noSuitableEncryptionKey
    | k :: _ => o.encryptWith E rnd alg k cek iv kid
  match r with
  | .ok (t, c) => (.ok t, { o with dict := PyDict.set o.dict "cek" c })
  | .error e => (.error e, o)

/-- `decrypter.decrypt(jwe, key, cek)` of the three classes: the message and the value then stored
as `self["cek"]`, `jwe.py:879-880, 890-891`. -/
def decryptBy (E : Env) (kind : JweKind) (sentinel : Bytes) (j : Jwt)
    (setup : Bytes × Bytes × Bytes × Bytes) (key : Option KeyArg) (cek : Bytes) :
    PyM (Bytes × PyVal) :=
  match kind with
  | .rsa => (rsaDecrypt E false sentinel j key cek).map fun r => (r.1, .bytes r.2)
  | .sym => (symDecrypt E j key cek).map fun m => (m, .none)
  | .ec => (ecDecrypt E j setup).map fun m => (m, .none)

/-- `except (KeyError, DecryptionFailed): pass`. -/
def isPassed : Exc → Bool
  | .keyError | .decryptionFailed => true
  | _ => false

/-- The loop over the keys, `jwe.py:887-900`; `i` counts the RSA decryptions. -/
def decryptLoop (E : Env) (kind : JweKind) (rnd : JweRnd) (j : Jwt)
    (setup : Bytes × Bytes × Bytes × Bytes) (alg : PyVal) : Nat → List Key → PyM (Bytes × PyVal)
  | _, [] => .error .decryptionFailed
  | i, k :: l =>
    match k.encryptionKey E alg false with
    | .error e => .error e
    | .ok key =>
      match decryptBy E kind (rnd.sentinel i) j setup (some key) [] with
      | .ok r => .ok r
      | .error e => if isPassed e then decryptLoop E kind rnd j setup alg (i + 1) l else .error e

/-- The attempt with a content key, `jwe.py:877-885`, followed by the loop. -/
def decryptTry (E : Env) (kind : JweKind) (rnd : JweRnd) (j : Jwt)
    (setup : Bytes × Bytes × Bytes × Bytes) (alg : PyVal) (keys : List Key) (cek : Bytes) :
    PyM (Bytes × PyVal) :=
  if cek = [] then decryptLoop E kind rnd j setup alg 0 keys
  else match decryptBy E kind (rnd.sentinel 0) j setup none cek with
    | .ok r => .ok r
    | .error e => if isPassed e then decryptLoop E kind rnd j setup alg 0 keys else .error e

/-- `JWE.decrypt` for an unpacked token, `jwe.py:849-900`. -/
def Jwe.decryptJwt (E : Env) (o : Jwe) (rnd : JweRnd) (j : Jwt) (keys : List Key) (alg : PyVal)
    (cek : Bytes) : PyM (Bytes × PyVal) := do
  let halg ← j.headers.getItem "alg"
  if alg.truthy ∧ alg.pyEq halg = false then .error .wrongEncryptionAlgorithm
  else do
    let src ← o.keySource E keys
    let ks ← o.pickKeys jweAlg2keytype src "enc" halg
    if ks = [] ∧ cek = [] then .error .noSuitableDecryptionKey
    else
      match ← jweKind halg with
      | .rsa => decryptTry E .rsa rnd j ([], [], [], []) halg ks cek
      | .sym => decryptTry E .sym rnd j ([], [], [], []) halg ks cek
      | .ec => match ks with
        | [] => .error .noSuitableECDHKey
        | k :: _ => do
          let s ← ecDecSetup E j k
          decryptTry E .ec rnd j s halg ks s.1

/-- The token to work on: the argument, or the one stored by `factory`, `jwe.py:842-847`. -/
def Jwe.tokenOf (o : Jwe) (token : Bytes) : PyM Jwt :=
  if token ≠ [] then Jwt.unpack token
  else match o.jwt with
    | some j => .ok j
    | none => .error .unboundLocalError

/-- `JWE.decrypt(token, keys, alg, cek)`, `jwe.py:841-900`. -/
def Jwe.decrypt (E : Env) (o : Jwe) (rnd : JweRnd) (token : Bytes) (keys : List Key)
    (alg : PyVal := .none) (cek : Bytes := []) : PyM Bytes × Jwe :=
  match (do
    let j ← o.tokenOf token
    o.decryptJwt E rnd j keys alg cek) with
  | .ok (m, c) => (.ok m, { o with dict := PyDict.set o.dict "cek" c })
  | .error e => (.error e, o)

/-- `factory(token)`, `jwe.py:903-910`. -/
def jweFactory (token : Bytes) : PyM (Option Jwe) := do
  let j ← Jwt.unpack token
  if ← j.isJwe then .ok (some { jwt := some j }) else .ok none

end Verif
