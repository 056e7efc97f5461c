import Verif.Py.Str
/-
Python values as they occur in JWT headers, JWK dictionaries and JSON texts.  Nothing here is
repository code; it is the reading of the Python built-ins.
-/

namespace Verif

/-- A Python value.  Dictionaries are insertion-ordered association lists with string keys (JSON
objects and keyword arguments have no other keys); floats are represented by their source text
(no modelled function computes with a float). -/
inductive PyVal
  | none
  | bool (b : Bool)
  | int (i : Int)
  | float (text : String)
  | str (s : String)
  | bytes (b : Bytes)
  | list (l : List PyVal)
  | dict (d : List (String × PyVal))
deriving Repr, Inhabited

/-- A Python dictionary with string keys. -/
abbrev PyDict := List (String × PyVal)

namespace PyVal

mutual
/-- Structural equality of the representation (not Python's `==`, see `pyEq`). -/
def beq : PyVal → PyVal → Bool
  | .none, .none => true
  | .bool a, .bool b => a == b
  | .int a, .int b => a == b
  | .float a, .float b => a == b
  | .str a, .str b => a == b
  | .bytes a, .bytes b => a == b
  | .list a, .list b => beqL a b
  | .dict a, .dict b => beqD a b
  | _, _ => false
termination_by structural v => v
def beqL : List PyVal → List PyVal → Bool
  | [], [] => true
  | a :: l, b :: m => beq a b && beqL l m
  | _, _ => false
termination_by structural v => v
def beqD : List (String × PyVal) → List (String × PyVal) → Bool
  | [], [] => true
  | (k, a) :: l, (k', b) :: m => k == k' && beq a b && beqD l m
  | _, _ => false
termination_by structural v => v
end

mutual
theorem beq_iff : ∀ a b : PyVal, beq a b = true ↔ a = b
  | .none, b => by cases b <;> simp [beq]
  | .bool _, b => by cases b <;> simp [beq]
  | .int _, b => by cases b <;> simp [beq]
  | .float _, b => by cases b <;> simp [beq]
  | .str _, b => by cases b <;> simp [beq]
  | .bytes _, b => by cases b <;> simp [beq]
  | .list l, b => by cases b <;> simp [beq, beqL_iff l]
  | .dict l, b => by cases b <;> simp [beq, beqD_iff l]
theorem beqL_iff : ∀ a b : List PyVal, beqL a b = true ↔ a = b
  | [], b => by cases b <;> simp [beqL]
  | a :: l, b => by cases b <;> simp [beqL, beq_iff a, beqL_iff l]
theorem beqD_iff : ∀ a b : List (String × PyVal), beqD a b = true ↔ a = b
  | [], b => by cases b <;> simp [beqD]
  | (k, a) :: l, b => by
    cases b with
    | nil => simp [beqD]
    | cons y m => obtain ⟨k', b⟩ := y; simp [beqD, beq_iff a, beqD_iff l, and_assoc]
end

instance : DecidableEq PyVal := fun a b => decidable_of_iff _ (beq_iff a b)

/-- Python truth value. -/
def truthy : PyVal → Bool
  | .none => false
  | .bool b => b
  | .int i => i != 0
  | .float t => t != "0.0" && t != "-0.0"
  | .str s => s != ""
  | .bytes b => b != []
  | .list l => l != []
  | .dict d => d != []

/-- The integer value of an `int` or `bool` (`bool` is a subclass of `int`). -/
def asInt? : PyVal → Option Int
  | .int i => some i
  | .bool b => some (if b then 1 else 0)
  | _ => Option.none

end PyVal

/-- `d.get(k)` / the value of `d[k]` if present. -/
def PyDict.get? (d : PyDict) (k : String) : Option PyVal := List.lookup k d

/-- `d[k] = v`: replaces the value in place, or appends. -/
def PyDict.set : PyDict → String → PyVal → PyDict
  | [], k, v => [(k, v)]
  | (k', v') :: d, k, v => if k' = k then (k, v) :: d else (k', v') :: PyDict.set d k v

/-- `dict(pairs)` / the dictionary the JSON parser builds from the member list. -/
def dictOfPairs (ps : PyDict) : PyDict := ps.foldl (fun d kv => PyDict.set d kv.1 kv.2) []

/-- `d.update(e)`. -/
def PyDict.update (d e : PyDict) : PyDict := e.foldl (fun d kv => PyDict.set d kv.1 kv.2) d

/-- `k in d`. -/
def PyDict.has (d : PyDict) (k : String) : Bool := (PyDict.get? d k).isSome

namespace PyVal

mutual
/-- Python `==` on values: `True == 1`, dictionaries compare independently of the order.  Floats
compare by their text and are never equal to ints (a simplification: `1.0 == 1` in Python). -/
def pyEq : PyVal → PyVal → Bool
  | .none, .none => true
  | .bool a, .bool b => a == b
  | .bool a, .int b => (if a then 1 else 0) == b
  | .int a, .bool b => a == (if b then 1 else 0)
  | .int a, .int b => a == b
  | .float a, .float b => a == b
  | .str a, .str b => a == b
  | .bytes a, .bytes b => a == b
  | .list a, .list b => pyEqL a b
  | .dict a, .dict b => a.length == b.length && pyEqD a b
  | _, _ => false
termination_by structural v => v
def pyEqL : List PyVal → List PyVal → Bool
  | [], [] => true
  | a :: l, b :: m => pyEq a b && pyEqL l m
  | _, _ => false
termination_by structural v => v
def pyEqD : List (String × PyVal) → List (String × PyVal) → Bool
  | [], _ => true
  | (k, a) :: l, m => (match List.lookup k m with | some b => pyEq a b | Option.none => false) && pyEqD l m
termination_by structural v => v
end

/-- `v[k]` for a string literal `k`: `KeyError` on a dictionary without `k`, `TypeError` on
anything else (lists and strings want integer indices). -/
def getItem (v : PyVal) (k : String) : PyM PyVal :=
  match v with
  | .dict d => match PyDict.get? d k with
    | some x => .ok x
    | Option.none => .error .keyError
  | _ => .error .typeError

/-- `needle` occurs in `hay` as a contiguous block. -/
def isInfixOf : List Char → List Char → Bool
  | p, [] => p.isEmpty
  | p, c :: l => p.isPrefixOf (c :: l) || isInfixOf p l

/-- `k in v` for a string literal `k`. -/
def contains (v : PyVal) (k : String) : PyM Bool :=
  match v with
  | .dict d => .ok (PyDict.has d k)
  | .list l => .ok (l.any fun x => pyEq (.str k) x)
  | .str s => .ok (isInfixOf k.toList s.toList)
  | _ => .error .typeError

/-- `v.lower()`: only strings (and bytes, which the code never compares successfully) have it. -/
def lower (v : PyVal) : PyM PyVal :=
  match v with
  | .str s => .ok (.str (pyLower s))
  | .bytes b => .ok (.bytes b)
  | _ => .error .attributeError

/-- `v.get(k)` : dictionaries only. -/
def dictGet (v : PyVal) (k : String) : PyM PyVal :=
  match v with
  | .dict d => .ok ((PyDict.get? d k).getD .none)
  | _ => .error .attributeError

mutual
/-- Values that JSON can represent exactly: no bytes, no floats, no duplicate keys. -/
def jsonable : PyVal → Bool
  | .none | .bool _ | .int _ | .str _ => true
  | .float _ | .bytes _ => false
  | .list l => jsonableL l
  | .dict d => decide ((d.map Prod.fst).Nodup) && jsonableD d
termination_by structural v => v
def jsonableL : List PyVal → Bool
  | [] => true
  | v :: l => jsonable v && jsonableL l
termination_by structural v => v
def jsonableD : List (String × PyVal) → Bool
  | [] => true
  | (_, v) :: l => jsonable v && jsonableD l
termination_by structural v => v
end

end PyVal

end Verif
