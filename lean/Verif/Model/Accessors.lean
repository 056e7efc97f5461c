import Verif.Model.Jwe
/-
Accessors that nothing in the package calls, from /repo/src/jwkest/jwe.py, jws.py and jwk.py.
-/

namespace Verif

/-- `self.b64part[i]`: `b64_encrypted_key()`, `b64_initialization_vector()`, `b64_ciphertext()`,
`b64_authentication_tag()`, `jwe.py:272-282`, for `i` from 1 to 4. -/
def Jwt.b64At (j : Jwt) (i : Nat) : PyM Bytes :=
  match j.b64part[i]? with
  | some p => .ok p
  | none => .error .indexError

/-- `protected_header()`, `jwe.py:284-285`. -/
def Jwt.protectedHeader (j : Jwt) : PyM Bytes := j.partAt 0

/-- `JWSig.valid()`, `jws.py:236-240`. -/
def Jwt.valid (j : Jwt) : Bool := if j.part.length ≠ 3 then false else true

/-- `JWx.keys()`, `jws.py:314-315`.  (The place of `jwk` among the names is not modelled.) -/
def Jwx.keyNames (o : Jwx) : List String := o.dict.map Prod.fst ++ (if o.jwk.isSome then ["jwk"] else [])

/-- `JWx.dump_header()`, `jws.py:445-446`, for an object of class `JWS`: the members other than `jwk`, and `jwk`. -/
def Jwx.dumpHeader (o : Jwx) : PyDict × Option JKey :=
  (jwxArgs.filterMap fun x => (PyDict.get? o.dict x).map fun v => (x, v), o.jwk)

/-- `json.loads(b)` of bytes: text in UTF-8 unless there are zero bytes or a byte order mark
(`json.detect_encoding`). -/
def jsonLoadsBytes (E : Env) (b : Bytes) : PyM PyVal :=
  if (0 : UInt8) ∈ b ∨ [0xef, 0xbb, 0xbf] <+: b then E.jsonBytes b
  else match utf8Decode b with
    | .ok s => jsonLoads s
    | .error _ => E.jsonBytes b

/-- `JWx._decode(payload)`, `jws.py:438-443`. -/
def Jwx.decode (E : Env) (o : Jwx) (payload : Bytes) : PyM PyVal := do
  let m ← b64d payload
  match PyDict.get? o.dict "cty" with
  | some c => if c.pyEq (.str "JWT") then jsonLoadsBytes E m else .ok (.bytes m)
  | none => .ok (.bytes m)

/-- `rsa_eq(key1, key2)`, `jwk.py:179-184`. -/
def rsaEq (a b : RsaKey) : Bool := if a.n = b.n ∧ a.e = b.e then true else false

end Verif
