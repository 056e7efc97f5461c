import Verif.Py.Str
import Verif.Py.Val
/-
Model of `/repo/src/jwkest/PBKDF2.py` under Python 3.  `read`, `__f`, `hexread`, `close` are not
modelled: they need an object, and no object is ever constructed (C67).
-/

namespace Verif

/-- `isinstance(v, str)`. -/
def PyVal.isStr : PyVal → Bool
  | .str _ => true
  | _ => false

/-- `isinstance(v, int)` (a `bool` is an `int`). -/
def PyVal.isInt : PyVal → Bool
  | .int _ => true
  | .bool _ => true
  | _ => false

/-- `if isinstance(v, str): v = v.encode("UTF-8")` — PBKDF2.py:174-175, 178-179, 232-233. -/
def encodeUtf8Step : PyVal → PyVal
  | .str s => .bytes (utf8Encode s)
  | v => v

/-- `if isinstance(v, str): v = v.encode("us-ascii")` — PBKDF2.py:226-227. -/
def encodeAsciiStep : PyVal → PyM PyVal
  | .str s => do .ok (.bytes (← asciiEncode s))
  | v => .ok v

/-- The integer value of an `int` or `bool`. -/
def PyVal.intValue : PyVal → Int
  | .int i => i
  | .bool b => if b then 1 else 0
  | _ => 0

/-- The attributes that `_setup` assigns — PBKDF2.py:193-199. -/
structure Pbkdf2 where
  passphrase : PyVal
  salt : PyVal
  iterations : PyVal
  blockNum : Nat := 0
  buf : String := ""
  closed : Bool := false

/-- `PBKDF2._setup` — PBKDF2.py:169-199.  `callable` says whether `prf` can be called. -/
def Pbkdf2.setup (passphrase salt iterations : PyVal) (callable : Bool) : PyM Pbkdf2 :=
  let passphrase := encodeUtf8Step passphrase
  if passphrase.isStr = false then .error .typeError
  else
    let salt := encodeUtf8Step salt
    if salt.isStr = false then .error .typeError
    else if iterations.isInt = false then .error .typeError
    else if iterations.intValue < 1 then .error .valueError
    else if callable = false then .error .typeError
    else .ok { passphrase, salt, iterations }

/-- `PBKDF2(passphrase, salt, iterations)` — PBKDF2.py:119-123: `_pseudorandom` is a bound method. -/
def Pbkdf2.new (passphrase salt : PyVal) (iterations : PyVal := .int 1000) : PyM Pbkdf2 :=
  Pbkdf2.setup passphrase salt iterations true

/-- `sep.join(l)`: every element must be of the type of the separator.  For a text separator. -/
def pyJoinStr (sep : String) (l : List PyVal) : PyM String :=
  if l.all PyVal.isStr then .ok (sep.intercalate (l.map fun v => match v with | .str s => s | _ => ""))
  else .error .typeError

/-- `struct.pack("@H", n)` for `0 ≤ n ≤ 0xffff`: two bytes (little endian). -/
def packH (n : Nat) : Bytes := [UInt8.ofNat (n % 256), UInt8.ofNat (n / 256)]

/-- `_makesalt` — PBKDF2.py:269-275: `randint` gives the three numbers.  `b64encode`
(PBKDF2.py:95-97) would raise `AttributeError` (`string.maketrans` does not exist in Python 3). -/
def pbkdf2Makesalt (rnd : Nat → Nat) : PyM PyVal := do
  let _ ← pyJoinStr "" ((List.range 3).map fun i => .bytes (packH (rnd i)))
  .error .attributeError

/-- `crypt(word, salt, iterations)` — PBKDF2.py:212-262.  `rest` stands for lines 237-262. -/
def pbkdf2Crypt (rnd : Nat → Nat) (rest : (word salt iterations : PyVal) → PyM PyVal) (word : PyVal)
    (salt : PyVal := .none) (iterations : PyVal := .none) : PyM PyVal := do
  let salt ← (match salt with | .none => pbkdf2Makesalt rnd | s => .ok s)
  let salt ← encodeAsciiStep salt
  if salt.isStr = false then .error .typeError
  else
    let word := encodeUtf8Step word
    if word.isStr = false then .error .typeError
    else rest word salt iterations

end Verif
