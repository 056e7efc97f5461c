import Verif.Model.Jwk
/-
Model of /repo/src/jwkest/jws.py.

Methods that change the object return the outcome together with the object afterwards.  A key
argument `None` and an empty list (or empty `KEYS`) behave alike everywhere and are both `[]`.
`str` tokens are given by their UTF-8 bytes.  Not modelled: logging, `mpint`, `mp2bin` (unused),
`dump_header`, `_decode` (unused).
-/

namespace Verif

/-! ### Signers -/

/-- The four signer classes with their digest, `jws.py:116-189`. -/
inductive SigAlg
  | hs (h : HashAlg)
  | rs (h : HashAlg)
  | es (h : HashAlg)
  | ps (h : HashAlg)
deriving DecidableEq, Repr

/-- `SIGNER_ALGS`, `jws.py:192-210`, without the entry `'none': None`. -/
def signerAlgs : List (String × SigAlg) :=
  [("HS256", .hs .sha256), ("HS384", .hs .sha384), ("HS512", .hs .sha512),
   ("RS256", .rs .sha256), ("RS384", .rs .sha384), ("RS512", .rs .sha512),
   ("ES256", .es .sha256), ("ES384", .es .sha384), ("ES512", .es .sha512),
   ("PS256", .ps .sha256), ("PS384", .ps .sha384), ("PS512", .ps .sha512)]

/-- The curve of an ECDSA signer, `jws.py:201-203`. -/
def esCurve : HashAlg → PyM NistCurve
  | .sha384 => nistCurve 384
  | .sha512 => nistCurve 521
  | _ => nistCurve 256

/-- `HMAC.new(key, msg, digestmod)` accepts bytes keys only. -/
def hmacKey : KeyArg → PyM Bytes
  | .obj (.val (.bytes b)) => .ok b
  | _ => .error .typeError

/-- PyCryptodome signature and cipher objects use the attributes of an RSA key. -/
def rsaKeyArg : KeyArg → PyM RsaKey
  | .obj (.rsa k) => .ok k
  | _ => .error .attributeError

/-- The private scalar used by ECDSA signing: `r * priv` with `bytes`, `str` or a list overflows,
with anything else that is not an integer raises `TypeError`. -/
def esPriv : KeyArg → PyM Int
  | .obj (.val v) => match v.asInt? with
    | some i => .ok i
    | none => match v with
      | .str _ | .bytes _ | .list _ => .error .overflowError
      | _ => .error .typeError
  | _ => .error .typeError

/-- The public point as `to_projective` reads it, `elliptic.py:121-126`: anything falsy is the
identity; otherwise items 0 and 1, which must be integers for the arithmetic. -/
def esPub : KeyArg → PyM EPt
  | .point x y => match x.asInt?, y.asInt? with
    | some x, some y => .ok (some (x, y))
    | _, _ => .error .typeError
  | .obj (.val v) =>
    if v.truthy = false then .ok none
    else match v with
      | .bytes (a :: b :: _) => .ok (some (a.toNat, b.toNat))
      | .bytes _ => .error .indexError
      | .list (a :: b :: _) => match a.asInt?, b.asInt? with
        | some x, some y => .ok (some (x, y))
        | _, _ => .error .typeError
      | .list _ => .error .indexError
      | .str s => if s.length = 1 then .error .indexError else .error .typeError
      | .dict _ => .error .keyError
      | _ => .error .typeError
  | .obj _ => .error .typeError

/-- `Signer.sign(msg, key)`, `jws.py:120-122, 138-141, 160-163, 177-180`.  `rnd` is the randomness
drawn.  ECDSA only uses the scalar modulo `N`. -/
def SigAlg.sign (E : Env) (a : SigAlg) (rnd : Nat) (msg : Bytes) (key : KeyArg) : PyM Bytes :=
  match a with
  | .hs h => do
    let k ← hmacKey key
    .ok (E.H.hmac h k msg)
  | .rs h => do
    let k ← rsaKeyArg key
    E.R.sign15 h k msg
  | .ps h => do
    let k ← rsaKeyArg key
    E.R.signPss h k rnd msg
  | .es h => do
    let C ← esCurve h
    let d ← esPriv key
    match C.sign 2 (bytesToNat (E.H.hash h msg)) (d.fmod C.N).toNat none rnd with
    | some r => r
    | none => .error .nonTermination

/-- The range test of `NISTEllipticCurve.verify`, `ecc.py:104-106`. -/
def NistCurve.sigInRange (C : NistCurve) (sig : Bytes) : Bool :=
  let r := NistCurve.bytes2int (sig.take C.bytes)
  let s := NistCurve.bytes2int (sig.drop C.bytes)
  decide ((0 < r ∧ r < C.N) ∧ (0 < s ∧ s < C.N))

/-- `Signer.verify(msg, sig, key)`, `jws.py:125-131, 143-152, 165-170, 182-189`: returns `True` or
raises. -/
def SigAlg.verify (E : Env) (a : SigAlg) (msg sig : Bytes) (key : KeyArg) : PyM Unit :=
  match a with
  | .hs h => do
    let k ← hmacKey key
    if constantTimeCompare (E.H.hmac h k msg) sig then .ok () else .error .badSignature
  | .rs h => do
    let k ← rsaKeyArg key
    match E.R.verify15 h k msg sig with
    | .ok true => .ok ()
    | .ok false => .error .badSignature
    | .error e => if e.isValueError then .error .badSignature else .error e
  | .ps h => do
    let k ← rsaKeyArg key
    if ← E.R.verifyPss h k msg sig then .ok () else .error .badSignature
  | .es h => do
    let C ← esCurve h
    if C.sigInRange sig then
      let pub ← esPub key
      if ← C.verify (bytesToNat (E.H.hash h msg)) sig pub then .ok () else .error .badSignature
    else .error .badSignature

/-- `alg2keytype(alg)`, `jws.py:213-223`. -/
def alg2keytype (alg : PyVal) : PyM (Option String) :=
  if alg.truthy = false then .ok (some "none")
  else match alg with
    | .str s =>
      if pyLower s = "none" then .ok (some "none")
      else if startsWith s "RS" || startsWith s "PS" then .ok (some "RSA")
      else if startsWith s "HS" || startsWith s "A" then .ok (some "oct")
      else if startsWith s "ES" || startsWith s "ECDH-ES" then .ok (some "EC")
      else .ok none
    | .bytes _ => .error .typeError
    | _ => .error .attributeError

/-! ### The object -/

/-- An element of an iterable of keys: a `Key`, or something that is none. -/
inductive JKey
  | key (k : Key)
  | other (v : PyVal)
deriving DecidableEq

/-- A `JWx` object: `msg`, `_dict` (its entry `jwk` is kept separately), `jwt`, and the attribute
`key` set by a successful verification. -/
structure Jwx where
  msg : PyVal := .none
  dict : PyDict := []
  jwk : Option JKey := none
  jwt : Option Jwt := none
  key : Option Key := none
deriving DecidableEq

/-- `JWx.args` without `jwk`, `jws.py:244-245`. -/
def jwxArgs : List String := ["alg", "jku", "x5u", "x5t", "x5c", "kid", "typ", "cty", "crit"]

/-- One round of the loop of `JWx.__init__` for a parameter other than `jwk`, `jws.py:279-297`. -/
def initStep (kw : PyDict) (d : PyDict) (a : String) : PyDict :=
  match PyDict.get? kw a with
  | none => if a = "alg" then PyDict.set d "alg" (.str "none") else d
  | some v =>
    if a = "x5c" ∨ a = "crit" then PyDict.set d "x5c" (if v.truthy then v else .list [])
    else PyDict.set d a v

/-- The value stored for the keyword `jwk`, `jws.py:287-293`. -/
def jwkParam (E : Env) : PyVal → PyM JKey
  | .dict d => (keyrep E d).map JKey.key
  | .str s => do
    match ← jsonLoads s with
    | .dict d => (keyrep E d).map JKey.key
    | _ => .error .attributeError
  | v => .ok (.other v)

/-- The body of `JWx.__init__`, `jws.py:271-297`, on an object whose attribute `key` is `key0` and
for the keywords `kw` (without `msg` and `with_digest`).  `args` is the class attribute without
`jwk`, split at the position of `jwk`.  If `keyrep` fails the parameters before `jwk` have been
stored. -/
def Jwx.initBody (E : Env) (args1 args2 : List String) (key0 : Option Key) (msg : PyVal) (kw : PyDict) :
    PyM Unit × Jwx :=
  let o : Jwx := { msg, key := key0 }
  if kw.isEmpty then (.ok (), o)
  else
    let d1 := args1.foldl (initStep kw) []
    match PyDict.get? kw "jwk" with
    | none => (.ok (), { o with dict := args2.foldl (initStep kw) d1 })
    | some v => match jwkParam E v with
      | .ok k => (.ok (), { o with dict := args2.foldl (initStep kw) d1, jwk := some k })
      | .error e => (.error e, { o with dict := d1 })

/-- Parameters of `JWx` before and after `jwk`. -/
def jwsArgs1 : List String := ["alg", "jku"]
@[inherit_doc jwsArgs1]
def jwsArgs2 : List String := ["x5u", "x5t", "x5c", "kid", "typ", "cty", "crit"]

/-- Remove the keywords that are parameters of `__init__` itself. -/
def stripInit (kw : PyDict) : PyDict := kw.filter fun p => p.1 != "msg" && p.1 != "with_digest"

/-- `JWS(msg, **kw)`: a keyword `self` or `msg` collides with a positional argument. -/
def Jws.new (E : Env) (msg : PyVal) (kw : PyDict) : PyM Jwx :=
  if PyDict.has kw "self" || PyDict.has kw "msg" then .error .typeError
  else
    let r := Jwx.initBody E jwsArgs1 jwsArgs2 none msg (stripInit kw)
    r.1.map fun _ => r.2

/-- `JWS(msg, jwk=key, **kw)` with a `Key` object; a `Key` is neither a dict nor a str
(`jws.py:292-293`). -/
def Jws.newWithKey (E : Env) (msg : PyVal) (kw : PyDict) (key : Key) : PyM Jwx :=
  (Jws.new E msg (kw ++ [("jwk", .none)])).map fun o => { o with jwk := some (.key key) }

/-- `self.__init__(**kw)` on an existing object, `jws.py:668`. -/
def Jwx.reinit (E : Env) (o : Jwx) (kw : PyDict) : PyM Unit × Jwx :=
  if PyDict.has kw "self" then (.error .typeError, o)
  else Jwx.initBody E jwsArgs1 jwsArgs2 o.key (kwGet kw "msg" .none) (stripInit kw)

/-- `_get_keys()`, `jws.py:343-360`, as the sequence obtained by iterating over the result: for
`jku` and `x5u` the result is a dictionary, whose iteration gives its (string) keys. -/
def Jwx.getKeys (E : Env) (o : Jwx) : PyM (List JKey) :=
  match o.jwk with
  | some k => .ok [k]
  | none =>
    match PyDict.get? o.dict "jku" with
    | some url => do
      let text ← E.httpGet url
      let r := Keys.loadJwks E [] text
      let _ ← r.1
      let d ← Keys.asDict r.2
      .ok (d.map fun p => .other p.1)
    | none => if PyDict.has o.dict "x5u" then .ok [.other (.str "rsa")] else .ok []

/-- `k.kty in _kty`, `jws.py:385-387`. -/
def ktyMatches (kt : String) (kty : PyVal) : Bool :=
  kty == .str (pyLower kt) || kty == .str (pyUpper kt) ||
    kty == .bytes (utf8Encode (pyLower kt)) || kty == .bytes (utf8Encode (pyUpper kt))

/-- `[k for k in keys if k.kty in _kty]`, `jws.py:387`. -/
def keysOfType (kt : String) : List JKey → PyM (List Key)
  | [] => .ok []
  | .other _ :: _ => .error .attributeError
  | .key k :: l => do
    let r ← keysOfType kt l
    .ok (if ktyMatches kt k.kty then k :: r else r)

/-- The tests of the loop, `jws.py:404-416`. -/
def keyPasses (kid : PyVal) (use : String) (alg : PyVal) (k : Key) : Bool :=
  (!kid.truthy || kid.pyEq k.kid) &&
  (use == "" || !k.use.truthy || k.use.pyEq (.str use)) &&
  (!alg.truthy || !k.alg.truthy || k.alg.pyEq alg)

/-- The requested `kid`, `jws.py:388-394`; a header that is not a dictionary raises `TypeError`. -/
def Jwx.wantedKid (o : Jwx) : PyM PyVal :=
  match PyDict.get? o.dict "kid" with
  | some v => .ok v
  | none => match o.jwt with
    | none => .ok .none
    | some j => match j.headers.getItem "kid" with
      | .ok v => .ok v
      | .error .keyError => .ok .none
      | .error e => .error e

/-- `pick_keys(keys, use, alg)`, `jws.py:365-420`; `a2k` is the method `alg2keytype` of the class. -/
def Jwx.pickKeys (a2k : PyVal → PyM (Option String)) (o : Jwx) (keys : List JKey) (use : String)
    (alg : PyVal) : PyM (List Key) := do
  let alg ← (if alg.truthy then .ok alg else PyVal.getItem (.dict o.dict) "alg")
  if alg = .str "none" then .ok []
  else
    match ← a2k alg with
    | none => .ok []
    | some kt =>
      let ks ← keysOfType kt keys
      let kid ← o.wantedKid
      .ok (ks.filter (keyPasses kid use alg))

/-- The keys to pick from: the given ones, or those of the object, `jws.py:453-456, 557-560`. -/
def Jwx.keySource (E : Env) (o : Jwx) (keys : List Key) : PyM (List JKey) :=
  if keys.isEmpty then o.getKeys E else .ok (keys.map JKey.key)

/-- `_pick_alg(keys)`, `jws.py:422-436`. -/
def Jwx.pickAlg (o : Jwx) (keys : List Key) : PyVal × Jwx :=
  let r : PyVal × Jwx := match PyDict.get? o.dict "alg" with
    | some a => (a, o)
    | none => match keys with
      | [k] => if k.alg.truthy then (k.alg, { o with dict := PyDict.set o.dict "alg" k.alg })
          else (.none, o)
      | _ => (.none, o)
  if r.1.truthy then r
  else (.str "none", { r.2 with dict := PyDict.set r.2.dict "alg" (.str "none") })

/-- `not _alg or _alg.lower() == "none"`. -/
def isNoneAlg (alg : PyVal) : PyM Bool :=
  if alg.truthy = false then .ok true
  else do
    let l ← alg.lower
    .ok (l == .str "none")

/-- `alg_keys(keys, use, protected)`, `jws.py:450-475`: key, header and algorithm.  (`protected` is
modified in place when it is not empty.) -/
def Jwx.algKeys (E : Env) (o : Jwx) (keys : List Key) (use : String) (prot : PyDict) :
    PyM (Option Key × PyDict × PyVal) × Jwx :=
  let (alg, o) := o.pickAlg keys
  let r : PyM (Option Key × PyDict × PyVal) := do
    let src ← o.keySource E keys
    let ks ← o.pickKeys alg2keytype src use alg
    let xargs := PyDict.set prot "alg" alg
    match ks with
    | k :: _ => .ok (some k, if k.kid.truthy then PyDict.set xargs "kid" k.kid else xargs, alg)
    | [] => if ← isNoneAlg alg then .ok (none, xargs, alg) else .error .noSuitableSigningKeys
  (r, o)

/-- `SIGNER_ALGS[alg]`, `jws.py:192-210`; the outer `none` is a `KeyError`, the inner the entry
`None`. -/
def signerOf (alg : PyVal) : Option (Option SigAlg) :=
  match alg with
  | .str s => if s = "none" then some none else (List.lookup s signerAlgs).map some
  | _ => none

/-- `sign_compact(keys, protected)`, `jws.py:477-505`. -/
def Jwx.signCompact (E : Env) (o : Jwx) (keys : List Key) (prot : PyDict) (rnd : Nat) :
    PyM String × Jwx :=
  match o.algKeys E keys "sig" prot with
  | (.error e, o) => (.error e, o)
  | (.ok (key, xargs, alg), o) =>
    let r : PyM String := do
      let xargs := match PyDict.get? o.dict "typ" with
        | some t => PyDict.set xargs "typ" t
        | none => xargs
      let jwt ← Jwt.init xargs
      if alg = .str "none" then jwt.pack [o.msg, .str ""]
      else
        match signerOf alg with
        | none => .error .unknownAlgorithm
        | some none => .error .attributeError
        | some (some a) =>
          let input ← jwt.pack [o.msg]
          match key with
          | none => .error .attributeError
          | some k =>
            let ka ← k.getKey true
            let sig ← a.sign E rnd (utf8Encode input) ka
            let s ← utf8Decode (b64e sig)
            .ok (strJoin [input, s])
    (r, o)

/-- The caller's dictionary `protected` after `sign_compact(keys, protected)`.  Unless it is empty it is
itself the header that is filled in (`xargs = protected or {}`, `jws.py:458-466, 489-490`). -/
def Jwx.protectedAfter (E : Env) (o : Jwx) (keys : List Key) (prot : PyDict) : PyDict :=
  if prot.isEmpty then prot
  else
    let (alg, o1) := o.pickAlg keys
    match (o1.keySource E keys).bind fun src => o1.pickKeys alg2keytype src "sig" alg with
    | .error _ => prot
    | .ok _ =>
      match (o.algKeys E keys "sig" prot).1 with
      | .error _ => PyDict.set prot "alg" alg
      | .ok (_, xargs, _) =>
        match PyDict.get? o1.dict "typ" with
        | some t => PyDict.set xargs "typ" t
        | none => xargs

/-- The loop over the picked keys, `jws.py:574-588`: the first key that verifies. -/
def verifyLoop (E : Env) (a : SigAlg) (msg sig : Bytes) : List Key → PyM Key
  | [] => .error .badSignature
  | k :: l =>
    match (k.getKey false).bind (a.verify E msg sig) with
    | .ok _ => .ok k
    | .error e => if e = .badSignature ∨ e = .indexError then verifyLoop E a msg sig l else .error e

/-- `JWSig.sign_input()`, `jws.py:227-228`. -/
def Jwt.signInput (j : Jwt) : PyM Bytes :=
  match j.b64part with
  | a :: b :: _ => .ok (a ++ 46 :: b)
  | _ => .error .indexError

/-- The header's `alg` (`None` if missing) and whether it asks for no signature,
`jws.py:535-540`. -/
def Jwt.headerAlg (j : Jwt) : PyM (PyVal × Bool) :=
  match j.headers.getItem "alg" with
  | .error .keyError => .ok (.none, false)
  | .error e => .error e
  | .ok a => if a = .none then .ok (a, true) else do
    let l ← a.lower
    .ok (a, l == .str "none")

/-- The object has another algorithm than a (non-empty) one of the header, `jws.py:547-549`. -/
def Jwx.algConflict (o : Jwx) (alg : PyVal) : Bool :=
  match PyDict.get? o.dict "alg" with
  | some a => alg.truthy && !a.pyEq alg
  | none => false

/-- `verify_compact_verbose(jws, keys, allow_none, sigalg)`, `jws.py:519-588`: the returned message
and key.  (`sign_input` and `signature` cannot fail on three parts.) -/
def Jwx.verifyVerbose (E : Env) (o : Jwx) (jws : Bytes) (keys : List Key) (allowNone : Bool)
    (sigalg : PyVal) : PyM (PyVal × Option Key) × Jwx :=
  match Jwt.unpack jws with
  | .error e => (.error e, o)
  | .ok jwt =>
  if jwt.part.length ≠ 3 then (.error .wrongNumberOfParts, o) else
  let o := { o with jwt := some jwt }
  match jwt.headerAlg with
  | .error e => (.error e, o)
  | .ok (_, true) =>
    if allowNone then
      match jwt.payload E.jsonBytes with
      | .ok m => (.ok (m, none), { o with msg := m })
      | .error e => (.error e, o)
    else (.error .signerAlgError, o)
  | .ok (alg, false) =>
    if o.algConflict alg then (.error .signerAlgError, o)
    else if sigalg.truthy && !sigalg.pyEq alg then
      (if PyVal.getItem jwt.headers "alg" = .error .keyError then .error .keyError
        else .error .signerAlgError, o)
    else
      let o := { o with dict := PyDict.set o.dict "alg" alg }
      let r : PyM (Key × PyVal) := do
        let src ← o.keySource E keys
        let ks ← o.pickKeys alg2keytype src "" (.str "")
        if ks.isEmpty then .error .noSuitableSigningKeys
        else
          match signerOf alg with
          | none => .error .keyError
          | some none => .error .attributeError
          | some (some a) =>
            let inp ← jwt.signInput
            let sig ← (match jwt.part[2]? with | some s => .ok s | none => .error .indexError)
            let k ← verifyLoop E a inp sig ks
            let m ← jwt.payload E.jsonBytes
            .ok (k, m)
      match r with
      | .ok (k, m) => (.ok (m, some k), { o with msg := m, key := some k })
      | .error e => (.error e, o)

/-- `verify_compact(jws, keys, allow_none, sigalg)`, `jws.py:507-517`. -/
def Jwx.verifyCompact (E : Env) (o : Jwx) (jws : Bytes) (keys : List Key) (allowNone : Bool)
    (sigalg : PyVal) : PyM PyVal × Jwx :=
  let r := o.verifyVerbose E jws keys allowNone sigalg
  (r.1.map Prod.fst, r.2)

/-! ### JSON serialization -/

/-- `self.alg` through `__getattr__`, `jws.py:308-312`. -/
def Jwx.algAttr (o : Jwx) : PyM PyVal :=
  match PyDict.get? o.dict "alg" with
  | some a => .ok a
  | none => .error .attributeError

/-- `token.split(".")` of the text into exactly three parts, `jws.py:605-607`. -/
def split3 (s : String) : PyM (String × String × String) := do
  let l ← (splitDot (utf8Encode s)).mapM utf8Decode
  match l with
  | [a, b, c] => .ok (a, b, c)
  | _ => .error .valueError

/-- `create_signature(protected, unprotected)`, `jws.py:600-614`.  An absent `protected` is `[]`. -/
def Jwx.createSignature (E : Env) (o : Jwx) (keys : List Key) (prot : PyDict) (unprot : PyVal)
    (rnd : Nat) : PyM PyDict := do
  let alg ← o.algAttr
  let ph := if PyDict.has prot "alg" then prot else PyDict.set prot "alg" alg
  let j ← Jws.new E o.msg ph
  let t ← (j.signCompact E keys (if prot.isEmpty then [] else ph) rnd).1
  let (h, _, s) ← split3 t
  .ok ([("signature", .str s)] ++ (if unprot.truthy then [("header", unprot)] else []) ++
    (if h = "" then [] else [("protected", .str h)]))

/-- The header list, `jws.py:618-619`. -/
def Jwx.headerList (o : Jwx) : Option (List (PyDict × PyVal)) → PyM (List (PyDict × PyVal))
  | some l => .ok l
  | none => do
    let alg ← o.algAttr
    .ok [([("alg", alg)], .none)]

/-- The loop over the headers, `jws.py:627-629`; `rnds i` is the randomness of signature `i`. -/
def Jwx.createAll (E : Env) (o : Jwx) (keys : List Key) (rnds : Nat → Nat) (i : Nat) :
    List (PyDict × PyVal) → PyM (List PyVal)
  | [] => .ok []
  | (p, u) :: l => do
    let e ← o.createSignature E keys p u (rnds i)
    let r ← o.createAll E keys rnds (i + 1) l
    .ok (.dict e :: r)

/-- `sign_json(keys, headers, flatten)`, `jws.py:590-631`. -/
def Jwx.signJson (E : Env) (o : Jwx) (keys : List Key) (headers : Option (List (PyDict × PyVal)))
    (flatten : Bool) (rnds : Nat → Nat) : PyM String := do
  let pl ← (match o.msg with
    | .str s => b64eEncDec s
    | _ => .error .attributeError)
  let hs ← o.headerList headers
  match flatten, hs with
  | true, [(p, u)] =>
    let e ← o.createSignature E keys p u (rnds 0)
    jsonDumps (.dict (PyDict.update [("payload", .str pl)] e))
  | _, hs =>
    let l ← o.createAll E keys rnds 0 hs
    jsonDumps (.dict [("payload", .str pl), ("signatures", .list l)])

/-- `x.encode()`. -/
def strEncode : PyVal → PyM Bytes
  | .str s => .ok (utf8Encode s)
  | _ => .error .attributeError

/-- Key and value of an item that `dict.update` gets from a sequence. -/
def updatePair : PyVal → PyM (PyVal × PyVal)
  | .list [a, b] => .ok (a, b)
  | .list _ => .error .valueError
  | .str s => match s.toList with
    | [a, b] => .ok (.str (String.ofList [a]), .str (String.ofList [b]))
    | _ => .error .valueError
  | .dict [(a, _), (b, _)] => .ok (.str a, .str b)
  | .dict _ => .error .valueError
  | _ => .error .typeError

/-- `d.update(l)` for a list, then `f(**d)`: a key that is no text is refused by the call (`named` says whether there was none), an
unhashable one by `update`. -/
def updateSeq (d : PyDict) (named : Bool) : List PyVal → PyM PyDict
  | [] => if named then .ok d else .error .typeError
  | x :: l => do
    let (k, v) ← updatePair x
    match k with
    | .str k => updateSeq (PyDict.set d k v) named l
    | .list _ | .dict _ => .error .typeError
    | _ => updateSeq d false l

/-- `d.update(v)` for a value read from JSON, then `f(**d)`, `jws.py:665-668`. -/
def pyUpdate (d : PyDict) : PyVal → PyM PyDict
  | .dict p => .ok (PyDict.update d p)
  | .list l => updateSeq d true l
  | .str s => if s = "" then .ok d else .error .valueError
  | _ => .error .typeError

/-- `{**unprotected, **protected}` and the token text of one entry, `jws.py:660-667`. -/
def entryParts (payload sign : PyVal) : PyM (Bytes × PyDict) :=
  match sign with
  | .dict d => do
    let ph := kwGet d "protected" (.str "")
    let pb ← strEncode ph
    let pl ← strEncode payload
    let sg ← PyVal.getItem sign "signature"
    let sb ← strEncode sg
    let uh ← asDictArg (kwGet d "header" (.dict []))
    let hs ← protText ph
    let pv ← protVal hs
    let kw ← pyUpdate uh pv
    .ok (pb ++ 46 :: pl ++ 46 :: sb, kw)
  | _ => .error .attributeError
where
  /-- `.copy()` and `.update()` need a dictionary. -/
  asDictArg : PyVal → PyM PyDict
    | .dict u => .ok u
    | _ => .error .attributeError
  /-- `b64d_enc_dec(protected_headers)`. -/
  protText : PyVal → PyM String
    | .str s => b64dEncDec s
    | _ => .error .attributeError
  /-- `json.loads(... or {})`: `json.loads({})` raises `TypeError`. -/
  protVal (hs : String) : PyM PyVal :=
    if hs = "" then .error .typeError else jsonLoads hs

/-- One round of the loop of `verify_json`, `jws.py:660-670`. -/
def Jwx.verifyEntry (E : Env) (o : Jwx) (payload sign : PyVal) (keys : List Key) (allowNone : Bool)
    (sigalg : PyVal) : PyM PyVal × Jwx :=
  match entryParts payload sign with
  | .error e => (.error e, o)
  | .ok (token, hdrs) =>
    match o.reinit E hdrs with
    | (.error e, o) => (.error e, o)
    | (.ok _, o) => o.verifyCompact E token keys allowNone sigalg

/-- The loop of `verify_json`, `jws.py:658-676`. -/
def Jwx.verifyEntries (E : Env) (o : Jwx) (payload : PyVal) (keys : List Key) (allowNone : Bool)
    (sigalg : PyVal) (claim : PyVal) : List PyVal → PyM PyVal × Jwx
  | [] => (.ok claim, o)
  | s :: l =>
    match o.verifyEntry E payload s keys allowNone sigalg with
    | (.error e, o) => (.error e, o)
    | (.ok m, o) =>
      if claim = .none then o.verifyEntries E payload keys allowNone sigalg m l
      else if claim.pyEq m then o.verifyEntries E payload keys allowNone sigalg claim l
      else (.error .assertionError, o)

/-- The signature entries of the parsed token, `jws.py:648-656`; iterating over a text or an object
gives strings. -/
def signEntries (d : PyDict) : PyM (List PyVal) :=
  match PyDict.get? d "signatures" with
  | some (.list l) => .ok l
  | some (.dict m) => .ok (m.map fun p => .str p.1)
  | some (.str s) => .ok (s.toList.map fun c => .str (String.ofList [c]))
  | some _ => .error .typeError
  | none =>
    let pick := fun k => match PyDict.get? d k with | some v => [(k, v)] | none => []
    .ok [.dict (pick "protected" ++ pick "header" ++ pick "signature")]

/-- The payload and the entries of the token, `jws.py:641-656`. -/
def jsonParts (jws : String) : PyM (PyVal × List PyVal) :=
  match jsonLoads jws with
  | .ok (.dict d) =>
    match PyDict.get? d "payload" with
    | none => .error .jwsFormatError
    | some p => (signEntries d).map fun l => (p, l)
  | .ok _ => .error .typeError
  | .error e => .error e

/-- `verify_json(jws, keys, allow_none, sigalg)`, `jws.py:633-676`. -/
def Jwx.verifyJson (E : Env) (o : Jwx) (jws : String) (keys : List Key) (allowNone : Bool)
    (sigalg : PyVal) : PyM PyVal × Jwx :=
  match jsonParts jws with
  | .error e => (.error e, o)
  | .ok (p, l) => o.verifyEntries E p keys allowNone sigalg .none l

/-! ### Classification -/

/-- `alg in SIGNER_ALGS`; lists and dictionaries are not hashable. -/
def inSignerAlgs : PyVal → PyM Bool
  | .str s => .ok (s = "none" || (List.lookup s signerAlgs).isSome)
  | .list _ | .dict _ => .error .typeError
  | _ => .ok false

/-- `_is_compact_jws(jws)`, `jws.py:706-727`. -/
def Jwx.isCompactJws (o : Jwx) (jws : Bytes) : PyM Bool × Jwx :=
  match Jwt.unpack jws with
  | .error _ => (.ok false, o)
  | .ok jwt =>
    match jwt.headers.contains "alg" with
    | .error e => (.error e, o)
    | .ok false => (.ok false, o)
    | .ok true =>
      match jwt.headers with
      | .dict d =>
        let alg := kwGet d "alg" .none
        let d := if alg = .none then PyDict.set d "alg" (.str "none") else d
        let alg := kwGet d "alg" .none
        match inSignerAlgs alg with
        | .error e => (.error e, o)
        | .ok true => (.ok true, { o with jwt := some { jwt with headers := .dict d } })
        | .ok false => (.ok false, o)
      | _ => (.error .typeError, o)

/-- `is_jws(jws)` for a text, `jws.py:678-704`. -/
def Jwx.isJws (o : Jwx) (jws : String) : PyM Bool × Jwx :=
  match jsonLoads jws with
  | .ok (.dict d) =>
    (.ok ((PyDict.has d "payload" && PyDict.has d "signatures") ||
      (PyDict.has d "payload" && PyDict.has d "signature")), o)
  | .ok _ => (.error .attributeError, o)
  | .error _ => o.isCompactJws (utf8Encode jws)

/-- `jws.factory(token)`, `jws.py:730-735`. -/
def jwsFactory (token : String) : PyM (Option Jwx) :=
  match Jwx.isJws {} token with
  | (.ok true, o) => .ok (some o)
  | (.ok false, _) => .ok none
  | (.error e, _) => .error e

/-- `left_hash(msg, func)` for a text, `jws.py:81-88`; `none` is `None`. -/
def leftHash (H : Hashes) (msg : String) (func : String) : Option PyVal :=
  if func = "HS256" then some (asUnicode (b64e ((H.hash .sha256 (utf8Encode msg)).take 16)))
  else if func = "HS384" then some (asUnicode (b64e ((H.hash .sha384 (utf8Encode msg)).take 24)))
  else if func = "HS512" then some (asUnicode (b64e ((H.hash .sha512 (utf8Encode msg)).take 32)))
  else none

end Verif
