import Verif.Model.Jwe
/-
The command line tools of `script/`.  A run of a tool is a function of its parsed options; for an
option that names a file, the contents of the file are given (`RSA.importKey` of a key file: its
outcome).  The result is what is printed, or that the tool leaves with `exit`, or the exception that
ends it.

Not modelled: option parsing, the log file, files that cannot be read, `jwk_create.py` (under Python 3
it stops at `script/jwk_create.py:17`, writing `bytes` to a text file) and `jwk_export.py` (it stops at
`script/jwk_export.py:6`, importing a name that `jwkest.jwk` does not have), the certificate options
`-x`/`-X` of `jwdecrypt.py`.
-/

namespace Verif

/-- How a tool ends without exception. -/
inductive Outcome
  | exit
  | printed (l : List PyVal)
deriving DecidableEq

/-- An option that may be missing: text or `None`. -/
def optStr : Option String → PyVal
  | some s => .str s
  | none => .none

/-- An option is used only if it is given and not empty (`if args.x:`). -/
def given : Option String → Option String
  | some s => if s.isEmpty then none else some s
  | none => none

/-! ### jwkutil.py -/

/-- `sign(msg, key, alg, msgtype)`, `script/jwkutil.py:42-56`. -/
def utilSign (E : Env) (msg : PyVal) (keys : List Key) (alg msgtype : PyVal) (rnd : Nat) : PyM String := do
  let o ← Jws.new E msg [("alg", alg)]
  let o := if msgtype.truthy then { o with dict := PyDict.set o.dict "typ" msgtype } else o
  (o.signCompact E keys [] rnd).1

/-- `verify(msg, keys)`, `script/jwkutil.py:59-61`, for a text or bytes. -/
def utilVerify (E : Env) (msg : Bytes) (keys : List Key) : PyM PyVal :=
  (({} : Jwx).verifyCompact E msg keys false .none).1

/-- `encrypt(msg, keys, alg, enc)`, `script/jwkutil.py:64-66`. -/
def utilEncrypt (E : Env) (rnd : JweRnd) (msg : PyVal) (keys : List Key) (alg enc : PyVal) : PyM String := do
  let o ← Jwe.new E msg [("alg", alg), ("enc", enc)]
  (o.encrypt E rnd keys).1

/-- `decrypt(msg, keys)`, `script/jwkutil.py:69-71`. -/
def utilDecrypt (E : Env) (rnd : JweRnd) (msg : Bytes) (keys : List Key) : PyM Bytes :=
  (({} : Jwe).decrypt E rnd msg keys).1

/-- The options of `jwkutil.py`, `script/jwkutil.py:75-100`. -/
structure UtilArgs where
  sign : Bool := false
  verify : Bool := false
  encrypt : Bool := false
  decrypt : Bool := false
  /-- `-r`: the outcome of importing the key in the file. -/
  rsa : Option (PyM RsaKey) := none
  hmacKey : Option String := none
  kid : Option String := none
  /-- `-j`, `-J`: the contents of the files. -/
  jwk : Option String := none
  jwks : Option String := none
  jwksUrl : Option String := none
  alg : Option String := none
  encalg : Option String := none
  encenc : Option String := none
  msgtype : Option String := none
  /-- The message: from the file, the standard input, or the command line. -/
  message : Option String := none

/-- `-r`, `script/jwkutil.py:107-109`. -/
def UtilArgs.rsaKeys (E : Env) (a : UtilArgs) : PyM (List Key) :=
  match a.rsa with
  | none => .ok []
  | some r => do
    let r ← r
    let k ← rsaKeyNew E [("kid", optStr a.kid)] (.rsa r)
    .ok [k]

/-- `-k`, `script/jwkutil.py:110-111`. -/
def UtilArgs.hmacKeys (a : UtilArgs) : PyM (List Key) :=
  match given a.hmacKey with
  | none => .ok []
  | some s => do
    let k ← symKeyNew [] (.str s)
    .ok [k]

/-- `-j`, `script/jwkutil.py:113-115`. -/
def UtilArgs.jwkKeys (E : Env) (a : UtilArgs) : PyM (List Key) :=
  match a.jwk with
  | none => .ok []
  | some text => do
    match ← jsonLoads text with
    | .dict d => do
      let k ← keyrep E d
      .ok [k]
    | _ => .error .attributeError

/-- `KEYS().load_jwks(text)._keys`, `script/jwkutil.py:117-120`. -/
def loadedKeys (E : Env) (text : String) : PyM (List Key) := do
  let r := Keys.loadJwks E [] text
  let _ ← r.1
  .ok r.2

/-- `-J`, `script/jwkutil.py:117-120`. -/
def UtilArgs.jwksKeys (E : Env) (a : UtilArgs) : PyM (List Key) :=
  match a.jwks with
  | none => .ok []
  | some text => loadedKeys E text

/-- `-u`, `script/jwkutil.py:122-125`. -/
def UtilArgs.urlKeys (E : Env) (a : UtilArgs) : PyM (List Key) :=
  match given a.jwksUrl with
  | none => .ok []
  | some url => do
    let text ← E.httpGet (.str url)
    loadedKeys E text

/-- The keys, `script/jwkutil.py:106-125`. -/
def UtilArgs.keys (E : Env) (a : UtilArgs) : PyM (List Key) := do
  let k1 ← a.rsaKeys E
  let k2 ← a.hmacKeys
  let k3 ← a.jwkKeys E
  let k4 ← a.jwksKeys E
  let k5 ← a.urlKeys E
  .ok (k1 ++ k2 ++ k3 ++ k4 ++ k5)

/-- `_msg, _res = value`, `script/jwkutil.py:146`, for bytes: two integers. -/
def unpackTwo : Bytes → PyM (UInt8 × UInt8)
  | [a, b] => .ok (a, b)
  | _ => .error .valueError

/-- `verify(_msg, keys)` for text from the command line; `None` and integers have no `count`
(`jwt.py:14-18`). -/
def utilVerifyMsg (E : Env) (msg : Option String) (keys : List Key) : PyM PyVal :=
  match msg with
  | some s => utilVerify E (utf8Encode s) keys
  | none => .error .attributeError

/-- The main program, `script/jwkutil.py:127-151`. -/
def utilMain (E : Env) (a : UtilArgs) (rnd : Nat) (jrnd : JweRnd) : PyM Outcome := do
  let keys ← a.keys E
  if keys.isEmpty then .ok .exit
  else if a.sign then do
    let t ← utilSign E (optStr a.message) keys (optStr a.alg) (optStr a.msgtype) rnd
    let t ← (if a.encrypt then utilEncrypt E jrnd (.str t) keys (optStr a.encalg) (optStr a.encenc)
      else .ok t)
    .ok (.printed [.str t])
  else if a.encrypt then do
    let t ← utilEncrypt E jrnd (optStr a.message) keys (optStr a.encalg) (optStr a.encenc)
    .ok (.printed [.str t])
  else if a.decrypt then do
    let b ← utilDecrypt E jrnd (utf8Encode (a.message.getD "")) keys
    let _ ← unpackTwo b
    if a.verify then .error .attributeError else .ok (.printed [])
  else if a.verify then do
    let m ← utilVerifyMsg E a.message keys
    .ok (.printed [m])
  else .ok (.printed [])

/-! ### jwenc.py and jwdecrypt.py -/

/-- The options naming a key of `jwenc.py` and `jwdecrypt.py`, in order of precedence;
`script/jwenc.py:65-86`, `script/jwdecrypt.py:54-69`. -/
inductive KeyOpt
  | jwkUrl (url : String)
  | jwkFile (text : String)
  /-- `-X` of `jwenc.py` -/
  | x509Url
  /-- `-x` of `jwenc.py` and `-r` of both -/
  | rsaFile (r : PyM RsaKey)
  | missing

/-- `RSAKey(key=key); serialize()`, `script/jwenc.py:77-83`, `script/jwdecrypt.py:63-66`. -/
def rsaFileKeys (E : Env) (r : PyM RsaKey) : PyM (List Key) := do
  let r ← r
  let k ← rsaKeyNew E [] (.rsa r)
  let _ ← k.serialize false
  .ok [k]

/-- The keys, `script/jwenc.py:64-86`, `script/jwdecrypt.py:53-69`; `none`: the tool leaves.  With `-X`
`load_x509_cert(lrequest, url)` is called with the arguments in the wrong order: `request("GET", lrequest)`
fails, and the empty list is returned (`jwk.py:154-168`). -/
def KeyOpt.keys (E : Env) : KeyOpt → PyM (Option (List Key))
  | .jwkUrl url => do
    let text ← E.httpGet (.str url)
    let ks ← loadedKeys E text
    .ok (some ks)
  | .jwkFile text => do
    let ks ← loadedKeys E text
    .ok (some ks)
  | .x509Url => .ok (some [])
  | .rsaFile r => do
    let ks ← rsaFileKeys E r
    .ok (some ks)
  | .missing => .ok none

/-- `SUPPORTED["enc"]` and `SUPPORTED["alg"]`, `jwe.py:234-239`, as tested at `script/jwenc.py:92-97`. -/
def supportedEnc : List String :=
  ["A128CBC-HS256", "A192CBC-HS384", "A256CBC-HS512", "A128GCM", "A192GCM", "A256GCM"]
@[inherit_doc supportedEnc]
def supportedAlg : List String :=
  ["RSA1_5", "RSA-OAEP", "RSA-OAEP-256", "A128KW", "A192KW", "A256KW", "ECDH-ES", "ECDH-ES+A128KW",
    "ECDH-ES+A192KW", "ECDH-ES+A256KW"]

/-- `jwenc.py`, `script/jwenc.py:64-111`. -/
def jwencMain (E : Env) (opt : KeyOpt) (alg enc message : Option String) (rnd : JweRnd) : PyM Outcome := do
  match ← opt.keys E with
  | none => .ok .exit
  | some keys =>
    match given alg, given enc with
    | some alg, some enc =>
      if ¬ enc ∈ supportedEnc then .ok .exit
      else if ¬ alg ∈ supportedAlg then .ok .exit
      else do
        let o ← Jwe.new E (optStr message) [("alg", .str alg), ("enc", .str enc)]
        let t ← (o.encrypt E rnd keys).1
        .ok (.printed [.str t])
    | _, _ => .ok .exit

/-- `msg.strip("\n\r")`, `script/jwdecrypt.py:72-73`. -/
def stripNewlines (s : String) : String :=
  let nl := fun c => c == '\n' || c == '\r'
  String.ofList ((s.toList.dropWhile nl).reverse.dropWhile nl).reverse

/-- `jwdecrypt.py`, `script/jwdecrypt.py:53-78`; the message is the contents of a file or given on the
command line. -/
def jwdecryptMain (E : Env) (opt : KeyOpt) (file message : Option String) (rnd : JweRnd) : PyM Outcome := do
  match ← opt.keys E with
  | none => .ok .exit
  | some keys =>
    let msg := match file with
      | some s => stripNewlines s
      | none => message.getD ""
    let b ← (({} : Jwe).decrypt E rnd (utf8Encode msg) keys).1
    .ok (.printed [.bytes b])

/-! ### gen_symkey.py, peek.py -/

/-- `gen_symkey.py`, `script/gen_symkey.py:25-27`: `secret` is the random text. -/
def genSymkey (secret : String) (kid : Option String) : PyM Outcome := do
  let k ← symKeyNew [("kid", optStr kid)] (.str secret)
  let d ← k.serialize true
  let s ← jsonDumps (.dict [("keys", .list [d])])
  .ok (.printed [.str s])

/-- `peek.py`, `script/peek.py:8-18`. -/
def peekMain (token : String) : PyM Outcome := do
  match ← jweFactory (utf8Encode token) with
  | some _ => .ok (.printed [.str "jwe"])
  | none =>
    match ← jwsFactory token with
    | none => .ok (.printed [])
    | some o => match o.jwt with
      | none => .error .attributeError
      | some j => match j.part with
        | _ :: p :: _ => .ok (.printed [.str "jws", j.headers, .bytes p])
        | _ => .error .indexError

end Verif
