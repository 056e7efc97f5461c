import Verif.Model.Jwt
import Verif.Model.Ecc
import Verif.Py.Env
/-
Model of /repo/src/jwkest/jwk.py.

Not modelled: reading key files and PEM text (`jwk.py:94-109, 124-143, 171-176`), the X.509
download (`146-168`; its result never reaches a successful verification, see `Model/Jws`), the
unused helpers `dicthash`, `intarr2str`, `rsa_eq`, `x509_rsa_load` (others are in `Model/Leftover`),
and the attribute `inactive_since`.
-/

namespace Verif

/-- Values of the attributes `key` and `curve`: any Python value, a PyCryptodome RSA key, or a
`NISTEllipticCurve`. -/
inductive KObj
  | val (v : PyVal)
  | rsa (k : RsaKey)
  | curve (c : NistCurve)
deriving DecidableEq

/-- Truth value; the two library classes define neither `__bool__` nor `__len__`. -/
def KObj.truthy : KObj → Bool
  | .val v => v.truthy
  | _ => true

/-- The attributes of `RSAKey`, `jwk.py:426-434`. -/
structure RsaMat where
  n : PyVal
  e : PyVal
  d : PyVal
  p : PyVal
  q : PyVal
  dp : PyVal
  dq : PyVal
  di : PyVal
  qi : PyVal
deriving DecidableEq

/-- The class of a key and the attributes specific to it. -/
inductive Mat
  | plain
  | rsa (m : RsaMat)
  | ec (crv x y d : PyVal) (curve : KObj)
  | sym (k : PyVal)
deriving DecidableEq

/-- A `Key` object, `jwk.py:238-277`, with `_hash` (`None` or the number). -/
structure Key where
  kty : PyVal
  alg : PyVal
  use : PyVal
  kid : PyVal
  key : KObj
  x5c : PyVal
  x5t : PyVal
  x5u : PyVal
  extra : PyDict
  hash : Option Nat
  mat : Mat
deriving DecidableEq

/-- Keyword argument with a default. -/
def kwGet (kw : PyDict) (name : String) (dflt : PyVal) : PyVal := (PyDict.get? kw name).getD dflt

/-- `isinstance(v, str) ? v : as_unicode(v)`, `jwk.py:252-271`. -/
def strAttr : PyVal → PyVal
  | .bytes b => asUnicode b
  | v => v

/-- `Key.__init__`, `jwk.py:247-277`.  `known` are the keyword names the class consumes; the rest
goes to `extra_args`. -/
def keyCommon (kty0 : String) (known : List String) (kw : PyDict) (key : KObj) (mat : Mat) : Key :=
  let x5c := kwGet kw "x5c" .none
  { kty := strAttr (kwGet kw "kty" (.str kty0))
    alg := strAttr (kwGet kw "alg" (.str ""))
    use := strAttr (kwGet kw "use" (.str ""))
    kid := strAttr (kwGet kw "kid" (.str ""))
    key
    x5c := if x5c.truthy then x5c else .list []
    x5t := kwGet kw "x5t" (.str "")
    x5u := kwGet kw "x5u" (.str "")
    extra := kw.filter fun kv => !(known.contains kv.1)
    hash := none
    mat }

/-- The keyword arguments of `Key.__init__`. -/
def keyArgs : List String := ["kty", "alg", "use", "kid", "key", "x5c", "x5t", "x5u"]

/-- `len(v)`. -/
def pyLen : PyVal → PyM Nat
  | .str s => .ok s.length
  | .bytes b => .ok b.length
  | .list l => .ok l.length
  | .dict d => .ok d.length
  | _ => .error .typeError

/-- `bytes(l)` for a list. -/
def listBytes : List PyVal → PyM Bytes
  | [] => .ok []
  | v :: l => match v.asInt? with
    | some i => if 0 ≤ i ∧ i < 256 then (listBytes l).map (i.toNat.toUInt8 :: ·) else .error .valueError
    | none => .error .typeError

/-- `bytes(v)`; a dictionary is iterated over, its keys are texts.  (Memory is unlimited.) -/
def pyBytes : PyVal → PyM Bytes
  | .bytes b => .ok b
  | .int i => if i < 0 then .error .valueError else if i < 2 ^ 63 then .ok (List.replicate i.toNat 0) else .error .overflowError
  | .bool b => .ok (if b then [0] else [])
  | .list l => listBytes l
  | .dict [] => .ok []
  | _ => .error .typeError

/-- `deser(val)`, `jwk.py:402-408`. -/
def deser : PyVal → PyM Nat
  | .str s => base64ToLongBytes (utf8Encode s)
  | .bytes b => base64ToLongBytes b
  | v => (pyBytes v).bind base64ToLongBytes

/-- `isinstance(v, int)`. -/
def isInt : PyVal → Bool
  | .int _ | .bool _ => true
  | _ => false

/-- The body of the loop in `RSAKey.deserialize`, `jwk.py:447-457`. -/
def rsaLong (v : PyVal) : PyM PyVal :=
  if v.truthy = false || isInt v then .ok v else (deser v).map fun n => .int n

/-- `except ValueError: raise DeSerializationNotPossible`. -/
def valueErrorTo {α} (e' : Exc) : PyM α → PyM α
  | .error e => if e.isValueError then .error e' else .error e
  | r => r

/-- The integers of a list of values, `TypeError` on anything else. -/
def asInts : List PyVal → PyM (List Int)
  | [] => .ok []
  | v :: l => match v.asInt? with
    | some i => (asInts l).map (i :: ·)
    | none => .error .typeError

/-- `RSAKey._split`, `jwk.py:510-528`. -/
def rsaSplit (k : Key) (m : RsaMat) : PyM Key :=
  match k.key with
  | .rsa r =>
    let m := { m with n := .int r.n, e := .int r.e }
    let m := match r.priv with
      | none => m
      | some (d, p, q) =>
        { m with
          d := .int d
          p := if p ≠ 0 then .int p else m.p
          q := if q ≠ 0 then .int q else m.q }
    .ok { k with mat := .rsa m }
  | v => if v.truthy then .error .attributeError else .error .serializationNotPossible

/-- `x5c[0].encode("ascii")`, `jwk.py:472`. -/
def x5cFirst : PyVal → PyM Bytes
  | .list (.str s :: _) => asciiEncode s
  | .list (_ :: _) => .error .attributeError
  | .str s => match s.toList with
    | c :: _ => asciiEncode (String.ofList [c])
    | [] => .error .indexError
  | .bytes (_ :: _) => .error .attributeError
  | .dict _ => .error .keyError
  | .list [] | .bytes [] => .error .indexError
  | _ => .error .typeError

/-- The list passed to `RSA.construct`, `jwk.py:459-468`. -/
def rsaParts (m : RsaMat) : List PyVal :=
  [m.n, m.e] ++ (if m.d.truthy then [m.d] else []) ++
    (if m.p.truthy then m.p :: (if m.q.truthy then [m.q] else []) else [])

/-- `RSAKey.deserialize`, `jwk.py:444-486`. -/
def rsaDeserialize (E : Env) (k : Key) (m : RsaMat) : PyM Key :=
  if m.n.truthy && m.e.truthy then
    valueErrorTo .deSerializationNotPossible do
      let n ← rsaLong m.n; let e ← rsaLong m.e; let d ← rsaLong m.d
      let p ← rsaLong m.p; let q ← rsaLong m.q; let dp ← rsaLong m.dp
      let dq ← rsaLong m.dq; let di ← rsaLong m.di; let qi ← rsaLong m.qi
      let m := { n, e, d, p, q, dp, dq, di, qi : RsaMat }
      let lst ← asInts (rsaParts m)
      let key ← E.R.construct lst
      .ok { k with key := .rsa key, mat := .rsa m }
  else if k.x5c.truthy then do
    let t ← x5cFirst k.x5c
    let der ← a2bBase64 t
    if k.x5t.truthy then
      match k.x5t with
      | .str s =>
        let t ← asciiEncode s
        let t ← b64d t
        if t = E.H.hash .sha1 der then .ok () else .error .deSerializationNotPossible
      | _ => .error .attributeError
    let key ← E.R.fromCert der
    rsaSplit { k with key := .rsa key } m
  else .error .deSerializationNotPossible

/-- The keyword arguments of `RSAKey.__init__`. -/
def rsaArgs : List String := keyArgs ++ ["n", "e", "d", "p", "q", "dp", "dq", "di", "qi"]

/-- `RSAKey.__init__`, `jwk.py:422-442`. -/
def rsaKeyNew (E : Env) (kw : PyDict) (key : KObj) : PyM Key :=
  if PyDict.has kw "self" then .error .typeError else do
  let g := fun s => kwGet kw s (.str "")
  let m : RsaMat := ⟨g "n", g "e", g "d", g "p", g "q", g "dp", g "dq", g "di", g "qi"⟩
  let k := keyCommon "RSA" rsaArgs kw key (.rsa m)
  let ln ← pyLen m.n
  let pub ← (if ln > 0 then (pyLen m.e).map (· != 0) else .ok false)
  let lc ← pyLen k.x5c
  if k.key.truthy = false ∧ (pub = true ∨ lc > 0) then rsaDeserialize E k m
  else if k.key.truthy ∧ ¬(m.n.truthy ∧ m.e.truthy) then rsaSplit k m
  else .ok k

/-- A list that `base64url_to_long` decodes; the tests for `+`, `/` and `=` compare its numbers with texts. -/
def listLong : PyVal → Bool
  | .list l => match deser (.list l) with
    | .ok _ => true
    | .error _ => false
  | _ => false

/-- `Key.verify` on the `longs` of an `ECKey`, `jwk.py:325-340`: the attribute values afterwards and
whether the loop got through.  `base64url_to_long` of a `str` raises `TypeError` (Python 3), so the
first non-empty value that is neither an integer nor a list of byte values ends the loop with `False`. -/
def verifyLongs : List PyVal → PyM (List PyVal × Bool)
  | [] => .ok ([], true)
  | v :: l =>
    if v.truthy = false || isInt v || listLong v then (verifyLongs l).map fun r => (v :: r.1, r.2)
    else match v with
      | .bytes b => (utf8Decode b).map fun s => (.str s :: l, false)
      | v => .ok (v :: l, false)

/-- The final part of `Key.verify`, `jwk.py:342-347`. -/
def verifyKid (kid : PyVal) : PyM Unit :=
  if kid.truthy then match kid with
    | .str _ => .ok ()
    | _ => .error .headerError
  else .ok ()

/-- `NISTEllipticCurve.by_name` of any value, `ecc.py:32-41`. -/
def curveByVal : PyVal → PyM NistCurve
  | .str s => curveByName s
  | .bytes b => curveByNameB b
  | _ => .error .eccException

/-- One coordinate in `ECKey.deserialize`, `jwk.py:597-604`. -/
def ecCoord (v : PyVal) : PyM PyVal :=
  if isInt v then .ok v
  else match deser v with
    | .ok n => .ok (.int n)
    | .error e => if e = .typeError || e.isValueError then .error .deSerializationNotPossible
        else .error e

/-- `ECKey.deserialize`, `jwk.py:588-612`.  (The first test constructs an exception without raising
it.) -/
def ecDeserialize (k : Key) (crv x y d : PyVal) : PyM Key := do
  let x ← ecCoord x
  let y ← ecCoord y
  let c ← curveByVal crv
  let d ← (if d.truthy then match d with
      | .str _ => valueErrorTo .deSerializationNotPossible ((deser d).map fun n => .int n)
      | d => .ok d
    else .ok d)
  .ok { k with mat := .ec crv x y d (.curve c) }

/-- `ECKey.load_key(key)`, `jwk.py:642-645`, when `getrandbits` returns `rnd`. -/
def ecLoadKey (k : Key) (crv : PyVal) (key : KObj) (rnd : Nat) : PyM Key :=
  match key with
  | .curve c =>
    match c.keyPair rnd with
    | (d, some (x, y)) => .ok { k with mat := .ec crv (.int x) (.int y) (.int d) (.curve c) }
    | (_, none) => .error .typeError
  | _ => .error .attributeError

/-- The keyword arguments of `ECKey.__init__`. -/
def ecArgs : List String := keyArgs ++ ["crv", "x", "y", "d", "curve"]

/-- `ECKey.__init__`, `jwk.py:570-586`. -/
def ecKeyNew (kw : PyDict) (key curve : KObj) (rnd : Nat) : PyM Key :=
  if PyDict.has kw "self" then .error .typeError else do
  let g := fun s => kwGet kw s (.str "")
  let crv := g "crv"
  let k := keyCommon "EC" ecArgs kw key (.ec crv (g "x") (g "y") (g "d") curve)
  if crv.truthy ∧ curve.truthy = false then
    let (vs, ok) ← verifyLongs [g "x", g "y", g "d"]
    if ok then verifyKid k.kid
    match vs with
    | [x, y, d] => ecDeserialize k crv x y d
    | _ => .error .assertionError
  else if key.truthy then
    if crv.truthy = false ∧ curve.truthy = false then ecLoadKey k crv key rnd else .ok k
  else .ok k

/-- `as_bytes(s)`, `__init__.py:214-224`. -/
def asBytes : PyVal → PyVal
  | .str s => .bytes (utf8Encode s)
  | v => v

/-- The keyword arguments of `SYMKey.__init__`. -/
def symArgs : List String := keyArgs ++ ["k", "mtrl"]

/-- `SYMKey.__init__`, `jwk.py:670-678`. -/
def symKeyNew (kw : PyDict) (key : PyVal) : PyM Key :=
  if PyDict.has kw "self" then .error .typeError else do
  let kk := kwGet kw "k" (.str "")
  let key := asBytes key
  let k := keyCommon "oct" symArgs kw (.val key) (.sym kk)
  if key.truthy = false ∧ kk.truthy then
    let kk := asBytes kk
    let b ← pyBytes kk
    let raw ← b64d b
    .ok { k with key := .val (.bytes raw), mat := .sym kk }
  else .ok k

/-- `Key(**kw)`, `jwk.py:247-277`. -/
def plainKeyNew (kw : PyDict) (key : KObj) : PyM Key :=
  if PyDict.has kw "self" then .error .typeError else .ok (keyCommon "" keyArgs kw key .plain)

/-- `keyrep(kspec)` with the default encoding, `jwk.py:741-768`: text values become bytes.  `rnd` is
only used for an `EC` specification whose `key` member is a curve, which a dictionary of plain values
cannot hold. -/
def keyrep (E : Env) (kspec : PyDict) : PyM Key :=
  let kw := kspec.map fun kv => (kv.1, asBytes kv.2)
  let key := kwGet kw "key" .none
  match PyDict.get? kspec "kty" with
  | none => .error .keyError
  | some kty =>
    if kty.pyEq (.str "RSA") then rsaKeyNew E kw (.val key)
    else if kty.pyEq (.str "oct") then symKeyNew kw key
    else if kty.pyEq (.str "EC") then
      ecKeyNew kw (.val key) (.val (kwGet kw "curve" .none)) 0
    else plainKeyNew kw (.val key)

/-- `key_from_jwk_dict(jwk_dict, private)`, `jwk.py:205-235`.  Missing members raise `KeyError`. -/
def keyFromJwkDict (E : Env) (d : PyDict) (priv : Bool) : PyM Key := do
  let get := fun (s : String) => PyVal.getItem (.dict d) s
  let sub := fun (names : List String) => names.mapM fun s => (get s).map fun v => (s, v)
  let kty ← get "kty"
  if kty.pyEq (.str "EC") then
    let kw ← sub (["kid", "crv", "x", "y"] ++ if priv then ["d"] else [])
    ecKeyNew kw (.val .none) (.val .none) 0
  else if kty.pyEq (.str "RSA") then
    let kw ← sub (["kid", "n", "e"] ++ if priv then ["d", "p", "q"] else [])
    rsaKeyNew E kw (.val .none)
  else if kty.pyEq (.str "oct") then
    let kw ← sub ["kid", "k"]
    symKeyNew kw .none
  else .error .unknownAlgorithm

/-! ### Serialization -/

/-- `Key.common`, `jwk.py:289-297`. -/
def Key.common (k : Key) : PyDict :=
  [("kty", k.kty)] ++ (if k.use.truthy then [("use", k.use)] else []) ++
    (if k.kid.truthy then [("kid", k.kid)] else []) ++
    (if k.alg.truthy then [("alg", k.alg)] else [])

/-- `long_to_base64(v)`, `__init__.py:105-111`, of any value: does not return for negative integers
(the loop of `long2intarr` stays at -1), `TypeError` for values that are not integers. -/
def longToBase64Val (v : PyVal) : PyM PyVal :=
  match v.asInt? with
  | some i => if i < 0 then .error .nonTermination else (longToBase64 i.toNat).map PyVal.str
  | none => .error .typeError

/-- `if item: res[param] = long_to_base64(item)`. -/
def serLong (res : PyDict) (param : String) (v : PyVal) : PyM PyDict :=
  if v.truthy then (longToBase64Val v).map fun s => PyDict.set res param s else .ok res

/-- `RSAKey.serialize`, `jwk.py:488-508`.  (The order of `n` and `e`, taken from a Python set, is
arbitrary; here `n` comes first.) -/
def rsaSerialize (k : Key) (m : RsaMat) (priv : Bool) : PyM PyDict :=
  if k.key.truthy = false then .error .serializationNotPossible else do
  let res ← serLong k.common "n" m.n
  let res ← serLong res "e" m.e
  if priv then
    let res ← serLong res "n" m.n; let res ← serLong res "e" m.e
    let res ← serLong res "d" m.d; let res ← serLong res "p" m.p
    let res ← serLong res "q" m.q; let res ← serLong res "dp" m.dp
    let res ← serLong res "dq" m.dq; let res ← serLong res "di" m.di
    serLong res "qi" m.qi
  else .ok res

/-- `ECKey.serialize`, `jwk.py:626-640`. -/
def ecSerialize (k : Key) (crv x y d : PyVal) (curve : KObj) (priv : Bool) : PyM PyDict :=
  if crv.truthy = false ∧ curve.truthy = false then .error .serializationNotPossible else do
  let name ← (match curve with
    | .curve c => .ok c.name
    | _ => .error .attributeError)
  let xs ← longToBase64Val x
  let ys ← longToBase64Val y
  let res := PyDict.set (PyDict.set (PyDict.set k.common "crv" (.str name)) "x" xs) "y" ys
  if priv ∧ d.truthy then (longToBase64Val d).map fun s => PyDict.set res "d" s else .ok res

/-- `SYMKey.serialize`, `jwk.py:686-689`; the argument `private` is ignored. -/
def symSerialize (k : Key) : PyM PyDict := do
  let b ← (match k.key with
    | .val v => pyBytes v
    | _ => .error .typeError)
  .ok (PyDict.set k.common "k" (asUnicode (b64e b)))

/-- `serialize(private)`; `Key.serialize` itself returns `None`, `jwk.py:309-314`. -/
def Key.serialize (k : Key) (priv : Bool) : PyM PyVal :=
  match k.mat with
  | .plain => .ok .none
  | .rsa m => (rsaSerialize k m priv).map PyVal.dict
  | .ec crv x y d c => (ecSerialize k crv x y d c priv).map PyVal.dict
  | .sym _ => (symSerialize k).map PyVal.dict

/-- `serialize()`: the default of `private` is `False`, for `SYMKey` `True`, `jwk.py:309, 488, 626,
686`. -/
def Key.serializeDflt (k : Key) : PyM PyVal :=
  match k.mat with
  | .sym _ => k.serialize true
  | _ => k.serialize false

/-- `Key.to_dict`, `jwk.py:279-287`. -/
def Key.toDict (k : Key) : PyM PyDict := do
  match ← k.serialize true with
  | .dict d => .ok (PyDict.update d k.extra)
  | _ => .error .attributeError

/-! ### Thumbprint, hash, equality -/

/-- The `required` members of each class after `members.sort()`, `jwk.py:245,420,568,668`. -/
def Key.required (k : Key) : List String :=
  match k.mat with
  | .plain => ["kty"]
  | .rsa _ => ["e", "kty", "n"]
  | .ec .. => ["crv", "key", "x", "y"]
  | .sym _ => ["k", "kty"]

/-- One element of the thumbprint text, `jwk.py:377`. -/
def tpElem (ser : PyDict) (elem : String) : PyM (Option String) :=
  match PyDict.get? ser elem with
  | none => .ok none
  | some v => do
    let s ← jsonDumps v
    .ok (some ("\"" ++ elem ++ "\":" ++ s))

/-- `','.join(l)`. -/
def joinComma : List String → String
  | [] => ""
  | [s] => s
  | s :: l => s ++ "," ++ joinComma l

/-- The text that `thumbprint` hashes with the default members, `jwk.py:364-378`. -/
def Key.thumbInput (k : Key) : PyM String := do
  match ← k.serializeDflt with
  | .dict ser =>
    let l ← k.required.mapM (tpElem ser)
    .ok ("{" ++ joinComma (l.filterMap id) ++ "}")
  | _ => .error .typeError

/-- `DIGEST_HASH`, `jwk.py:84-88`. -/
def digestHash (name : String) : PyM HashAlg :=
  if name = "SHA-256" then .ok .sha256
  else if name = "SHA-384" then .ok .sha384
  else if name = "SHA-512" then .ok .sha512
  else .error .keyError

/-- `Key.thumbprint(hash_function)`, `jwk.py:364-380`. -/
def Key.thumbprint (E : Env) (k : Key) (hashFn : String) : PyM Bytes := do
  let s ← k.thumbInput
  let h ← digestHash hashFn
  .ok (E.H.hash h (utf8Encode s))

/-- `Key.__hash__`, `jwk.py:382-399`: the number, and the key with `_hash` (and perhaps `kid`)
set.  `_hash` 0 counts as unset. -/
def Key.pyHash (E : Env) (k : Key) : PyM (Nat × Key) :=
  match k.hash with
  | some (h + 1) => .ok (h + 1, k)
  | _ => do
    let tp ← k.thumbprint E "SHA-256"
    let h := bytesToNat tp
    if k.kid.truthy then .ok (h, { k with hash := some h })
    else .ok (h, { k with hash := some h, kid := asUnicode (b64e tp) })

/-- Do two keys have the same attribute names (`__dict__.keys()`), i.e. the same class shape? -/
def sameShape : Mat → Mat → Bool
  | .plain, .plain => true
  | .rsa _, .rsa _ => true
  | .ec .., .ec .. => true
  | .sym _, .sym _ => true
  | _, _ => false

/-- `Key.__eq__` of two keys, `jwk.py:349-359`.  `Key.public_members` was extended with `n`, `e` by
the class body of `RSAKey` (`jwk.py:418-419`), so comparing two plain keys ends in
`AttributeError`.  The comparison of public members stops at the first difference. -/
def Key.pyEq (a b : Key) : PyM Bool :=
  let base := b.kty.pyEq a.kty && b.alg.pyEq a.alg && b.use.pyEq a.use && b.kid.pyEq a.kid
  let x5 := b.x5c.pyEq a.x5c && b.x5t.pyEq a.x5t && b.x5u.pyEq a.x5u
  match a.mat, b.mat with
  | .plain, .plain => if base && x5 then .error .attributeError else .ok false
  | .rsa m, .rsa m' => .ok (base && x5 && m'.n.pyEq m.n && m'.e.pyEq m.e)
  | .ec crv x y _ _, .ec crv' x' y' _ _ => .ok (base && crv'.pyEq crv && x'.pyEq x && y'.pyEq y)
  | .sym k, .sym k' => .ok (base && k'.pyEq k)
  | _, _ => .ok false

/-! ### Key material for the algorithms -/

/-- What a key hands to a signer or encrypter. -/
inductive KeyArg
  | obj (k : KObj)
  | point (x y : PyVal)
deriving DecidableEq

/-- `get_key(private=...)`, `jwk.py:316-317` and `614-624`. -/
def Key.getKey (k : Key) (priv : Bool) : PyM KeyArg :=
  match k.mat with
  | .ec _ x y d _ =>
    if priv then (if d.truthy then .ok (.obj (.val d)) else .error .valueError)
    else if x.truthy && y.truthy then .ok (.point x y) else .error .valueError
  | _ => .ok (.obj k.key)

/-- `ALG2KEYLEN`, `jwk.py:655-662`. -/
def alg2keylen (alg : PyVal) : Option Nat :=
  if alg = .str "A128KW" then some 16
  else if alg = .str "A192KW" then some 24
  else if alg = .str "A256KW" then some 32
  else if alg = .str "HS256" then some 32
  else if alg = .str "HS384" then some 48
  else if alg = .str "HS512" then some 64
  else none

/-- `SYMKey.deserialize`, `jwk.py:680-684`. -/
def symDeserialize (k : PyVal) : PyM KObj :=
  if k.truthy then do
    let b ← pyBytes k
    let raw ← b64d b
    .ok (.val (.bytes raw))
  else .error .deSerializationNotPossible

/-- The argument of `sha…_digest(key)` for a `SYMKey.key`, `jwk.py:72-81`: `as_bytes` encodes text,
and `hashlib` wants bytes. -/
def keyBytes : KObj → PyM Bytes
  | .val (.bytes b) => .ok b
  | .val (.str s) => .ok (utf8Encode s)
  | _ => .error .typeError

/-- `SYMKey.encryption_key(alg)`, `jwk.py:691-721`. -/
def symEncryptionKey (H : Hashes) (key : KObj) (k alg : PyVal) : PyM Bytes := do
  let key ← (if key.truthy then .ok key else symDeserialize k)
  match alg2keylen alg with
  | none => .error .keyError
  | some n =>
    let b ← keyBytes key
    if n ≤ 32 then .ok ((H.hash .sha256 b).take n)
    else if n ≤ 48 then .ok ((H.hash .sha384 b).take n)
    else if n ≤ 64 then .ok ((H.hash .sha512 b).take n)
    else .error .jwkException

/-- `encryption_key(alg, private)`, `jwk.py:550-558, 650-652, 691-721`; a plain `Key` has no such
method. -/
def Key.encryptionKey (E : Env) (k : Key) (alg : PyVal) (priv : Bool) : PyM KeyArg :=
  match k.mat with
  | .plain => .error .attributeError
  | .rsa m =>
    if k.key.truthy then .ok (.obj k.key)
    else (rsaDeserialize E k m).map fun k => .obj k.key
  | .ec .. => k.getKey priv
  | .sym kk => (symEncryptionKey E.H k.key kk alg).map fun b => .obj (.val (.bytes b))

/-! ### Wrapping, public copies -/

/-- `jwk_wrap(key, use, kid)`, `jwk.py:771-790`. -/
def jwkWrap (E : Env) (key : KObj) (use kid : PyVal) (rnd : Nat) : PyM Key := do
  let kw : PyDict := [("use", use), ("kid", kid)]
  let k ← (match key with
    | .rsa r => do
      let k ← rsaKeyNew E kw (.val .none)
      match k.mat with
      | .rsa m => rsaSplit { k with key := .rsa r } m
      | _ => .error .attributeError
    | .val (.str s) => symKeyNew kw (.str s)
    | .curve c => do
      let k ← ecKeyNew kw (.val .none) (.val .none) rnd
      ecLoadKey k (.str "") (.curve c) rnd
    | _ => .error .generic)
  let _ ← k.serializeDflt
  .ok k

/-- `make_public_copy(key)`, `jwk.py:928-941`: a fresh object of the same class with the public
members copied. -/
def makePublicCopy (k : Key) : Key :=
  let c : Key := ⟨k.kty, k.alg, k.use, k.kid, .val .none, .list [], .str "", .str "", [], none, .plain⟩
  let e := PyVal.str ""
  match k.mat with
  | .plain => { c with x5c := k.x5c, x5t := k.x5t, x5u := k.x5u }
  | .rsa m => { c with
      x5c := k.x5c, x5t := k.x5t, x5u := k.x5u,
      mat := .rsa ⟨m.n, m.e, e, e, e, e, e, e, e⟩ }
  | .ec crv x y _ _ => { c with mat := .ec crv x y e (.val .none) }
  | .sym kk => { c with mat := .sym kk }

/-! ### `KEYS` -/

/-- A `KEYS` object, `jwk.py:793-795`. -/
abbrev Keys := List Key

/-- `load_dict(dikt)`, `jwk.py:797-799`.  Keys appended before a failing one stay. -/
def Keys.loadDict (E : Env) (ks : Keys) (dikt : PyVal) : PyM Unit × Keys :=
  match dikt.getItem "keys" with
  | .error e => (.error e, ks)
  | .ok (.list l) => go ks l
  | .ok (.dict d) => if d.isEmpty then (.ok (), ks) else (.error .attributeError, ks)
  | .ok (.str s) => if s.isEmpty then (.ok (), ks) else (.error .attributeError, ks)
  | .ok (.bytes b) => if b.isEmpty then (.ok (), ks) else (.error .attributeError, ks)
  | .ok _ => (.error .typeError, ks)
where
  go (ks : Keys) : List PyVal → PyM Unit × Keys
    | [] => (.ok (), ks)
    | .dict d :: l => match keyrep E d with
      | .ok k => go (ks ++ [k]) l
      | .error e => (.error e, ks)
    | _ :: _ => (.error .attributeError, ks)

/-- `load_jwks(jwks)`, `jwk.py:801-827`. -/
def Keys.loadJwks (E : Env) (ks : Keys) (jwks : String) : PyM Unit × Keys :=
  match jsonLoads jwks with
  | .error e => (.error e, ks)
  | .ok v => ks.loadDict E v

/-- `append(key)`, `jwk.py:916-917`. -/
def Keys.append (ks : Keys) (k : Key) : Keys := ks ++ [k]

/-- `add(item)`, `jwk.py:913-914`. -/
def Keys.add (E : Env) (ks : Keys) (item : PyDict) : PyM Unit × Keys :=
  match keyrep E item with
  | .ok k => (.ok (), ks ++ [k])
  | .error e => (.error e, ks)

/-- `wrap_add(keyinst, use, kid)`, `jwk.py:895-896`. -/
def Keys.wrapAdd (E : Env) (ks : Keys) (key : KObj) (use kid : PyVal) (rnd : Nat) : PyM Unit × Keys :=
  match jwkWrap E key use kid rnd with
  | .ok k => (.ok (), ks ++ [k])
  | .error e => (.error e, ks)

/-- `dump_jwks()`, `jwk.py:829-837`. -/
def Keys.dumpJwks (ks : Keys) : PyM String := do
  let res ← ks.mapM fun k => do
    let s ← k.serializeDflt
    b2sConv s
  jsonDumps (.dict [("keys", .list res)])

/-- `k.kty.lower()`. -/
def ktyLower (k : Key) : PyM PyVal := k.kty.lower

/-- `keys[item]`, `jwk.py:856-864`. -/
def Keys.getItem (ks : Keys) (item : String) : PyM (List Key) := do
  let l ← ks.mapM fun k => do
    let t ← ktyLower k
    .ok (t, k)
  .ok ((l.filter fun p => p.1 == .str (pyLower item)).map Prod.snd)

/-- Lists and dictionaries cannot be members of a set. -/
def hashable : PyVal → Bool
  | .list _ | .dict _ => false
  | _ => true

/-- Put a value into a set (kept as a list). -/
def setAdd (acc : List PyVal) (v : PyVal) : List PyVal :=
  if acc.any (fun a => a.pyEq v) then acc else acc ++ [v]

/-- `key_types()`, `jwk.py:876-881`: without duplicates (the order, taken from a set, is
arbitrary). -/
def Keys.keyTypes (ks : Keys) : PyM (List PyVal) :=
  if ks.all (fun k => hashable k.kty) then .ok ((ks.map Key.kty).foldl setAdd []) else .error .typeError

/-- `kids()`, `jwk.py:889-890`. -/
def Keys.kids (ks : Keys) : List PyVal := (ks.filter fun k => k.kid.truthy).map Key.kid

/-- `by_kid(kid)`, `jwk.py:892-893`. -/
def Keys.byKid (ks : Keys) (kid : PyVal) : List Key := ks.filter fun k => PyVal.pyEq kid k.kid

/-- The dictionary key under which `as_dict` files a key, `jwk.py:901-905`. -/
def asDictKty (kty : PyVal) : PyM PyVal :=
  if kty = .str "RSA" ∨ kty = .str "EC" ∨ kty = .str "oct" then .ok kty
  else if kty = .str "rsa" then .ok (.str "RSA")
  else if kty = .str "ec" then .ok (.str "EC")
  else kty.lower

/-- Append a key to the list filed under `kty`. -/
def fileUnder : List (PyVal × List Key) → PyVal → Key → List (PyVal × List Key)
  | [], t, k => [(t, [k])]
  | (t', l) :: d, t, k => if t' = t then (t', l ++ [k]) :: d else (t', l) :: fileUnder d t k

/-- `as_dict()`, `jwk.py:898-911`. -/
def Keys.asDict (ks : Keys) : PyM (List (PyVal × List Key)) :=
  ks.foldlM (fun d k => do
    let t ← asDictKty k.kty
    .ok (fileUnder d t k)) []

end Verif
