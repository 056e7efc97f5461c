import Verif.Model.Init
import Verif.Py.Json
/-
Model of /repo/src/jwkest/jwt.py.

A token argument is its UTF-8 bytes: `unpack` encodes `str` tokens first (`jwt.py:61-65`).
-/

namespace Verif

/-- `token.split(b".")`. -/
def splitDot : Bytes → List Bytes
  | [] => [[]]
  | c :: l =>
    if c = 46 then [] :: splitDot l
    else match splitDot l with
      | s :: r => (c :: s) :: r
      | [] => [[c]]

/-- `split_token(token)`, `jwt.py:14-18`. -/
def splitToken (token : Bytes) : PyM (List Bytes) :=
  if token.count 46 = 0 then .error .badSyntax else .ok (splitDot token)

mutual
/-- `b2s_conv(item)`, `jwt.py:21-31`: bytes are decoded; anything that is not None, text, int,
bool, list or dict raises `ValueError` (floats). -/
def b2sConv : PyVal → PyM PyVal
  | .bytes b => (utf8Decode b).map PyVal.str
  | .float _ => .error .valueError
  | .list l => (b2sConvL l).map PyVal.list
  | .dict d => (b2sConvD d).map PyVal.dict
  | v => .ok v
termination_by structural v => v
def b2sConvL : List PyVal → PyM (List PyVal)
  | [] => .ok []
  | v :: l => do
    let v ← b2sConv v
    let l ← b2sConvL l
    .ok (v :: l)
termination_by structural v => v
def b2sConvD : List (String × PyVal) → PyM (List (String × PyVal))
  | [] => .ok []
  | (k, v) :: l => do
    let v ← b2sConv v
    let l ← b2sConvD l
    .ok ((k, v) :: l)
termination_by structural v => v
end

/-- `b64encode_item(item)`, `jwt.py:34-43`.  `b64e` of an int (or bool) raises `TypeError`. -/
def b64encodeItem (item : PyVal) : PyM Bytes :=
  match item with
  | .bytes b => .ok (b64e b)
  | .str s => .ok (b64e (utf8Encode s))
  | .int _ | .bool _ => .error .typeError
  | v => do
    let v ← b2sConv v
    let s ← jsonDumpsC v
    .ok (b64e (utf8Encode s))

/-- A `JWT` object: `headers`, `b64part`, `part` (`jwt.py:46-52`). -/
structure Jwt where
  headers : PyVal
  b64part : List Bytes
  part : List Bytes
deriving DecidableEq, Repr

/-- `JWT(**headers)`, `jwt.py:47-52`.  A header called `self` collides with the parameter name
and is a `TypeError` of the call itself. -/
def Jwt.init (headers : PyDict) : PyM Jwt :=
  if PyDict.has headers "self" then .error .typeError else do
  let headers :=
    if ((PyDict.get? headers "alg").getD .none).truthy then headers
    else PyDict.set headers "alg" .none
  let b ← b64encodeItem (.dict headers)
  let p ← b64d b
  .ok { headers := .dict headers, b64part := [b], part := [p] }

/-- `JWT.unpack(token)`, `jwt.py:54-71`. -/
def Jwt.unpack (token : Bytes) : PyM Jwt := do
  let part ← splitToken token
  let dec ← part.mapM b64d
  let s ← utf8Decode (dec.headD [])
  let h ← jsonLoads s
  .ok { headers := h, b64part := part, part := dec }

/-- `".".join(l)`. -/
def strJoin : List String → String
  | [] => ""
  | [s] => s
  | s :: l => s ++ "." ++ strJoin l

/-- `JWT.pack(parts)` with `headers=None` (the only use), `jwt.py:73-95`: the returned text.
(`pack` also replaces `part`/`b64part` of the object, which nobody reads afterwards.) -/
def Jwt.pack (j : Jwt) (parts : List PyVal) : PyM String := do
  let headers := if j.headers.truthy then j.headers else .dict [("alg", .str "none")]
  if parts.isEmpty then
    let l ← j.b64part.mapM utf8Decode
    .ok (strJoin l)
  else
    let h ← b64encodeItem headers
    let ps ← parts.mapM b64encodeItem
    let l ← (h :: ps).mapM utf8Decode
    .ok (strJoin l)

/-- `as_unicode(b)`, `__init__.py:227-237`, on bytes: undecodable bytes are left as they are. -/
def asUnicode (b : Bytes) : PyVal :=
  match utf8Decode b with
  | .ok s => .str s
  | .error _ => .bytes b

/-- `json.loads(x)` of a `str` or `bytes` value.  `jb` is `json.loads` on byte strings that are not
valid UTF-8 (Python then tries UTF-16/32). -/
def jsonLoadsVal (jb : Bytes → PyM PyVal) : PyVal → PyM PyVal
  | .str s => jsonLoads s
  | .bytes b => jb b
  | _ => .error .typeError

/-- `JWT.payload()`, `jwt.py:97-108`. -/
def Jwt.payload (jb : Bytes → PyM PyVal) (j : Jwt) : PyM PyVal := do
  let p ← (match j.part[1]? with | some p => .ok p | none => .error .indexError)
  let msg := asUnicode p
  let hasCty ← j.headers.contains "cty"
  let skip ← (if hasCty then do
      let c ← j.headers.getItem "cty"
      let c ← c.lower
      .ok (c != .str "jwt")
    else .ok false)
  if skip then .ok msg
  else match jsonLoadsVal jb msg with
    | .ok v => .ok v
    | .error e => if e.isValueError then .ok msg else .error e

/-- `json.loads` on bytes only fails with subclasses of `ValueError` (`JSONDecodeError`,
`UnicodeDecodeError`). -/
def JsonBytesLawful (jb : Bytes → PyM PyVal) : Prop :=
  ∀ b e, jb b = .error e → e.isValueError = true

end Verif
