import Verif.Model.Jwe

/-!
# `JWE_SYM`, `JWE_RSA` and `JWE_EC` used by themselves (`jwe.py:399-725`)

`JWE.encrypt` and `JWE.decrypt` hand `JWE_SYM` the value of `key.encryption_key(...)`.  A program can
also use the class directly and hand it a `SYMKey` object; then the secret itself is the
key-encryption key.  Only a `JWE_RSA` object made by the program itself can have `with_digest` set: `JWE`
does not pass it on (`jwe.py:792, 863`).
-/

namespace Verif

/-- `JWE_SYM(msg, **kw)` for plain keyword values, `jwe.py:400-401`, `jws.py:244-245, 271-297`. -/
def jweSymNew (E : Env) (msg : PyVal) (kw : PyDict) : PyM Jwe :=
  if PyDict.has kw "self" || PyDict.has kw "msg" then .error .typeError
  else
    let r := Jwx.initBody E ["alg", "jku"] ["x5u", "x5t", "x5c", "kid", "typ", "cty", "crit", "enc"]
      none msg (stripInit kw)
    r.1.map fun _ => { r.2 with epk := none }

/-- `key.key.encode('utf8')`, or `key.key` if that has no such method, `jwe.py:424-428, 460-464`.  A
key of another class is not iterable, and no AES key: `TypeError` either way (`jwe.py:432, 466`). -/
def symSecret (k : Key) : KeyArg :=
  match k.mat, k.key with
  | .sym _, .val (.str s) => .obj (.val (.bytes (utf8Encode s)))
  | .sym _, v => .obj v
  | _, _ => .obj (.val .none)

/-- `JWE_SYM.encrypt(key, iv, cek, kid=...)` with a key object, `jwe.py:403-443`. -/
def jweSymEncrypt (E : Env) (o : Jwe) (rnd : JweRnd) (k : Key) (cek iv : Bytes := [])
    (kid : Option PyVal := none) : PyM String :=
  o.symEncrypt E rnd (symSecret k) cek iv kid

/-- `JWE_SYM().decrypt(token, key, cek)` with a key object (which is always true, `jwe.py:447`),
`jwe.py:445-476`. -/
def jweSymDecrypt (E : Env) (token : Bytes) (k : Key) (cek : Bytes := []) : PyM Bytes := do
  let j ← Jwt.unpack token
  let cek ← (if j.part.length ≠ 5 then .error .wrongNumberOfParts
    else if cek ≠ [] then .ok cek
    else do
      let jek ← j.partAt 1
      match symKek (symSecret k) with
      | .ok kek => aesUnwrapKey E.C kek jek
      | .error e => do
        let _ ← unpackQ (jek.take 8)
        .error e)
  let enc ← j.headers.getItem "enc"
  let ctxt ← j.partAt 3
  let hdr ← j.b64ProtectedHeader
  let iv ← j.partAt 2
  let tag ← j.partAt 4
  jweDecrypt E enc cek ctxt hdr iv tag

/-! ### `JWE_RSA` -/

/-- `JWE_RSA(msg, with_digest=wd, **kw).encrypt(key, iv, cek)` with a library key, `jwe.py:483-528`: the token
and the entry `cek` of the object (made as `JWE(msg, **kw)` is: the two classes have the same `args`,
`jwe.py:480-481, 729-730`). -/
def jweRsaEncrypt (E : Env) (o : Jwe) (wd : Bool) (rnd : JweRnd) (r : RsaKey) (cek iv : Bytes := []) :
    PyM (String × Bytes) :=
  o.rsaEncrypt E wd rnd (.obj (.rsa r)) cek iv

/-- `JWE_RSA(with_digest=wd).decrypt(token, key, cek)` with a library key, `jwe.py:530-574`: the message and the
entry `cek` of the object; `sentinel` is what `Random` reads, `jwe.py:137`. -/
def jweRsaDecrypt (E : Env) (wd : Bool) (sentinel token : Bytes) (r : RsaKey) (cek : Bytes := []) :
    PyM (Bytes × Bytes) := do
  let j ← Jwt.unpack token
  rsaDecrypt E wd sentinel j (some (.obj (.rsa r))) cek

/-! ### `JWE_EC` -/

/-- The attributes that `dec_setup` gives a `JWE_EC` object, `jwe.py:645-648, 668, 679`. -/
structure EcObj where
  headers : Option PyVal := none
  iv : Option Bytes := none
  ctxt : Option Bytes := none
  tag : Option Bytes := none
  cek : Option Bytes := none

/-- `dec_setup(token, key)` on an object, `jwe.py:643-682`: the attributes are assigned as it goes along, the
content key last. -/
def EcObj.decSetup (E : Env) (s : EcObj) (j : Jwt) (key : Key) : PyM Bytes × EcObj :=
  let s := { s with headers := some j.headers }
  match j.partAt 2 with
  | .error e => (.error e, s)
  | .ok iv =>
    let s := { s with iv := some iv }
    match j.partAt 3 with
    | .error e => (.error e, s)
    | .ok ctxt =>
      let s := { s with ctxt := some ctxt }
      match j.partAt 4 with
      | .error e => (.error e, s)
      | .ok tag =>
        let s := { s with tag := some tag }
        match ecDecSetup E j key with
        | .error e => (.error e, s)
        | .ok r => (.ok r.1, { s with cek := some r.1 })

/-- `decrypt(token)` on an object, `jwe.py:709-725`; `j` is the token, or what `unpack` makes of it.  (A missing
attribute is an `AttributeError`, `jws.py:309-313`; `msg` and `msg_valid`, which it assigns, are not read
again.) -/
def EcObj.decrypt (E : Env) (s : EcObj) (j : Jwt) : PyM Bytes :=
  match s.cek with
  | none => .error .attributeError
  | some cek =>
    if cek = [] then .error .generic
    else match s.headers, s.ctxt, s.iv, s.tag with
      | some h, some ctxt, some iv, some tag => do
        let enc ← h.getItem "enc"
        let hdr ← j.b64ProtectedHeader
        jweDecrypt E enc cek ctxt hdr iv tag
      | _, _, _, _ => .error .attributeError

/-- `enc_setup(msg, auth_data, key=k, **kw)` on an object, `jwe.py:581-641`: the result (without the ephemeral key
object) and the object, of which `msg` is assigned.  `epk` is the keyword argument of that name, a key object. -/
def jweEcEncSetup (E : Env) (o : Jwe) (rnd : JweRnd) (msg : PyVal) (k : Key) (kw : PyDict := [])
    (epk : Option Key := none) : PyM (Bytes × PyVal × Bytes × PyDict) × Jwe :=
  (Jwe.ecEncSetup E { dict := kw, epk := epk } o.dict rnd k, { o with msg := msg })

/-- `encrypt(key, iv, cek, ...)` on an object, `jwe.py:684-707`; `ek` is `encrypted_key`, `params` the one that
`enc_setup` returned, or empty.  The token carries the `iv` of the call. -/
def jweEcEncrypt (E : Env) (o : Jwe) (rnd : JweRnd) (cek iv : Bytes := []) (ek : Option PyVal := none)
    (params : PyDict := []) (kid : Option PyVal := none) : PyM String :=
  match ek with
  | some ek => o.ecEncrypt E rnd cek ek iv params kid
  | none => do
    let args := PyDict.update (withKid o.dict kid) params
    let jwe ← jwencNew args o.jwk none
    let enc ← PyVal.getItem (.dict args) "enc"
    let hdr ← jwe.b64EncodeHeader
    let (ctxt, tag) ← encSetup E rnd enc (asBytes o.msg) hdr cek iv
    jwe.pack [.bytes iv, .bytes ctxt, .bytes tag]

end Verif
