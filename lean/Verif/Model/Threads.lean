import Verif.Model.Jws
/-
Several threads that call `verify_compact_verbose` (`jws.py:519-588`) on one and the same JWS object.

The object is shared; the arguments and local variables of a call belong to its thread.  A call is cut
into moves, each of which writes the shared object at most once, and the moves of different threads
alternate in any order.  `pick_keys` (`jws.py:557-560, 365-420`) reads the object in several places; what
it sees there besides the keys is a parameter `view` of the move, which need not be any state the object
was ever in.  Not modelled: exceptions that exist only because of the race (`self.jwt.headers["kid"]` in
the text of an error message, `jws.py:566-568`).
-/

namespace Verif

/-- The arguments of one call, `jws.py:519-520`. -/
structure TCall where
  jws : Bytes
  keys : List Key
  allowNone : Bool
  sigalg : PyVal

/-- How far a call has come and its local variables, `jws.py:529-588`. -/
inductive TPc where
  /-- before `jws.py:529` -/
  | start
  /-- `self.jwt = jwt` is done, `jws.py:533` -/
  | unpacked (jwt : Jwt)
  /-- before `self["alg"] = _alg`, `jws.py:555` -/
  | checked (jwt : Jwt) (alg : PyVal)
  /-- after it -/
  | algSet (jwt : Jwt) (alg : PyVal)
  /-- before the loop over the keys, `jws.py:572` -/
  | picked (jwt : Jwt) (alg : PyVal) (ks : List Key)
  /-- `self.msg = jwt.payload()` is done, `jws.py:584` -/
  | msgSet (k : Key)
  /-- before the `return`, `jws.py:543, 586` -/
  | last (k : Option Key)
  | returned (r : PyM (PyVal × Option Key))

/-- The next move of a call on the shared object `o`, `jws.py:519-588`. -/
def TCall.step (E : Env) (c : TCall) (o view : Jwx) : TPc → TPc × Jwx
  | .start =>
    match Jwt.unpack c.jws with
    | .error e => (.returned (.error e), o)
    | .ok jwt =>
      if jwt.part.length ≠ 3 then (.returned (.error .wrongNumberOfParts), o)
      else (.unpacked jwt, { o with jwt := some jwt })
  | .unpacked jwt =>
    match jwt.headerAlg with
    | .error e => (.returned (.error e), o)
    | .ok (_, true) =>
      if c.allowNone then
        match jwt.payload E.jsonBytes with
        | .ok m => (.last none, { o with msg := m })
        | .error e => (.returned (.error e), o)
      else (.returned (.error .signerAlgError), o)
    | .ok (alg, false) =>
      if o.algConflict alg then (.returned (.error .signerAlgError), o)
      else if c.sigalg.truthy && !c.sigalg.pyEq alg then
        (.returned (if PyVal.getItem jwt.headers "alg" = .error .keyError then .error .keyError
          else .error .signerAlgError), o)
      else (.checked jwt alg, o)
  | .checked jwt alg => (.algSet jwt alg, { o with dict := PyDict.set o.dict "alg" alg })
  | .algSet jwt alg =>
    match (o.keySource E c.keys).bind fun src => view.pickKeys alg2keytype src "" (.str "") with
    | .error e => (.returned (.error e), o)
    | .ok ks =>
      if ks.isEmpty then (.returned (.error .noSuitableSigningKeys), o) else (.picked jwt alg ks, o)
  | .picked jwt alg ks =>
    match signerOf alg with
    | none => (.returned (.error .keyError), o)
    | some none => (.returned (.error .attributeError), o)
    | some (some a) =>
      let r : PyM (Key × PyVal) := do
        let inp ← jwt.signInput
        let sig ← (match jwt.part[2]? with | some s => .ok s | none => .error .indexError)
        let k ← verifyLoop E a inp sig ks
        let m ← jwt.payload E.jsonBytes
        .ok (k, m)
      match r with
      | .ok (k, m) => (.msgSet k, { o with msg := m })
      | .error e => (.returned (.error e), o)
  | .msgSet k => (.last (some k), { o with key := some k })
  | .last k => (.returned (.ok (o.msg, k)), o)
  | .returned r => (.returned r, o)

/-- The shared object and the point each thread has reached (`jws.py:519-588`). -/
structure TSys (ι : Type) where
  obj : Jwx
  pc : ι → TPc

/-- Thread `i` moves, `jws.py:519-588`. -/
def TSys.move [DecidableEq ι] (E : Env) (calls : ι → TCall) (s : TSys ι) (i : ι) (view : Jwx) :
    TSys ι :=
  { obj := ((calls i).step E s.obj view (s.pc i)).2
    pc := fun j => if j = i then ((calls i).step E s.obj view (s.pc i)).1 else s.pc j }

/-- What can happen: threads move in any order, `pick_keys` sees anything. -/
inductive TSys.Reach [DecidableEq ι] (E : Env) (calls : ι → TCall) : TSys ι → TSys ι → Prop
  | refl (s : TSys ι) : Reach E calls s s
  | move {s t : TSys ι} (i : ι) (view : Jwx) : Reach E calls s t → Reach E calls s (t.move E calls i view)

/-- What can happen even if each move is indivisible: threads move in any order, `pick_keys` sees the
object as it is. -/
inductive TSys.Sched [DecidableEq ι] (E : Env) (calls : ι → TCall) : TSys ι → TSys ι → Prop
  | refl (s : TSys ι) : Sched E calls s s
  | move {s t : TSys ι} (i : ι) : Sched E calls s t → Sched E calls s (t.move E calls i t.obj)

end Verif
