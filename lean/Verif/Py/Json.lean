import Verif.Py.Val
/-
The standard library `json` module as used by pyjwkest: `json.dumps` (ensure_ascii, default or
compact separators) and `json.loads` of text.  Nothing here is repository code.

Simplifications: floats keep their source text instead of being converted; a lone surrogate
escape (`\ud800`), which Python turns into a non-UTF-8-encodable string, is a parse error here;
Python's recursion limit and its 4300-digit limit for integers are not modelled.
-/

namespace Verif

/-- Hexadecimal digit, lower case as printed by `'\\u{0:04x}'`. -/
def hexDigit (n : Nat) : Char := Char.ofNat (if n < 10 then 48 + n else 87 + n)

/-- Four hexadecimal digits. -/
def hex4 (n : Nat) : List Char :=
  [hexDigit (n / 4096 % 16), hexDigit (n / 256 % 16), hexDigit (n / 16 % 16), hexDigit (n % 16)]

/-- One character of `json.encoder.py_encode_basestring_ascii`. -/
def jsonEscape (c : Char) : List Char :=
  if c = '"' then ['\\', '"']
  else if c = '\\' then ['\\', '\\']
  else if c = '\n' then ['\\', 'n']
  else if c = '\r' then ['\\', 'r']
  else if c = '\t' then ['\\', 't']
  else if c = Char.ofNat 12 then ['\\', 'f']
  else if c = Char.ofNat 8 then ['\\', 'b']
  else if 32 ≤ c.toNat ∧ c.toNat ≤ 126 then [c]
  else if c.toNat < 65536 then '\\' :: 'u' :: hex4 c.toNat
  else
    let n := c.toNat - 65536
    '\\' :: 'u' :: hex4 (55296 + n / 1024) ++ '\\' :: 'u' :: hex4 (56320 + n % 1024)

/-- A JSON string literal. -/
def jsonStr (s : String) : List Char := '"' :: s.toList.flatMap jsonEscape ++ ['"']

/-- Decimal digits of a natural number. -/
def natDigits (n : Nat) : List Char :=
  if _h : n < 10 then [Char.ofNat (48 + n)] else natDigits (n / 10) ++ [Char.ofNat (48 + n % 10)]
termination_by n

/-- `int.__repr__`. -/
def intDigits (i : Int) : List Char :=
  if i < 0 then '-' :: natDigits i.natAbs else natDigits i.natAbs

mutual
/-- `json.dumps(v, separators=(isep, ksep))` as characters; `TypeError` on bytes. -/
def dumpV (isep ksep : List Char) : PyVal → PyM (List Char)
  | .none => .ok "null".toList
  | .bool b => .ok (if b then "true".toList else "false".toList)
  | .int i => .ok (intDigits i)
  | .float t => .ok t.toList
  | .str s => .ok (jsonStr s)
  | .bytes _ => .error .typeError
  | .list [] => .ok ['[', ']']
  | .list (v :: l) => do
    let a ← dumpV isep ksep v
    let b ← dumpL isep ksep l
    .ok ('[' :: a ++ b ++ [']'])
  | .dict [] => .ok ['{', '}']
  | .dict ((k, v) :: d) => do
    let a ← dumpV isep ksep v
    let b ← dumpD isep ksep d
    .ok ('{' :: jsonStr k ++ ksep ++ a ++ b ++ ['}'])
termination_by structural v => v
/-- The elements after the first, each preceded by the separator. -/
def dumpL (isep ksep : List Char) : List PyVal → PyM (List Char)
  | [] => .ok []
  | v :: l => do
    let a ← dumpV isep ksep v
    let b ← dumpL isep ksep l
    .ok (isep ++ a ++ b)
termination_by structural v => v
/-- The members after the first, each preceded by the separator. -/
def dumpD (isep ksep : List Char) : List (String × PyVal) → PyM (List Char)
  | [] => .ok []
  | (k, v) :: d => do
    let a ← dumpV isep ksep v
    let b ← dumpD isep ksep d
    .ok (isep ++ jsonStr k ++ ksep ++ a ++ b)
termination_by structural v => v
end

/-- `json.dumps(v, separators=(",", ":"))`. -/
def jsonDumpsC (v : PyVal) : PyM String := (dumpV [','] [':'] v).map String.ofList

/-- `json.dumps(v)` with the default separators. -/
def jsonDumps (v : PyVal) : PyM String := (dumpV [',', ' '] [':', ' '] v).map String.ofList

/-! ### Parser -/

/-- JSON white space. -/
def isWs (c : Char) : Bool := c == ' ' || c == '\t' || c == '\n' || c == '\r'

/-- Skip white space. -/
def skipWs (l : List Char) : List Char := l.dropWhile isWs

/-- Value of a hexadecimal digit. -/
def hexVal (c : Char) : Option Nat :=
  if 48 ≤ c.toNat ∧ c.toNat ≤ 57 then some (c.toNat - 48)
  else if 97 ≤ c.toNat ∧ c.toNat ≤ 102 then some (c.toNat - 87)
  else if 65 ≤ c.toNat ∧ c.toNat ≤ 70 then some (c.toNat - 55)
  else none

/-- Four hexadecimal digits. -/
def hex4Val (a b c d : Char) : Option Nat := do
  let a ← hexVal a; let b ← hexVal b; let c ← hexVal c; let d ← hexVal d
  some (a * 4096 + b * 256 + c * 16 + d)

/-- The rest of a string literal after the opening quote (`scanstring` with `strict=True`). -/
def parseStr : List Char → Option (List Char × List Char)
  | [] => none
  | '"' :: r => some ([], r)
  | '\\' :: 'u' :: a :: b :: c :: d :: '\\' :: 'u' :: e :: f :: g :: h :: r =>
    match hex4Val a b c d with
    | none => none
    | some n =>
      if 55296 ≤ n ∧ n < 56320 then
        match hex4Val e f g h with
        | none => none
        | some m =>
          if 56320 ≤ m ∧ m < 57344 then do
            let (s, r) ← parseStr r
            some (Char.ofNat (65536 + (n - 55296) * 1024 + (m - 56320)) :: s, r)
          else none
      else if 56320 ≤ n ∧ n < 57344 then none
      else do
        let (s, r) ← parseStr ('\\' :: 'u' :: e :: f :: g :: h :: r)
        some (Char.ofNat n :: s, r)
  | '\\' :: 'u' :: a :: b :: c :: d :: r =>
    match hex4Val a b c d with
    | none => none
    | some n =>
      if 55296 ≤ n ∧ n < 57344 then none
      else do
        let (s, r) ← parseStr r
        some (Char.ofNat n :: s, r)
  | '\\' :: c :: r => do
    let x ← (if c = '"' then some '"' else if c = '\\' then some '\\' else if c = '/' then some '/'
      else if c = 'b' then some (Char.ofNat 8) else if c = 'f' then some (Char.ofNat 12)
      else if c = 'n' then some '\n' else if c = 'r' then some '\r'
      else if c = 't' then some '\t' else none)
    let (s, r) ← parseStr r
    some (x :: s, r)
  | c :: r =>
    if c.toNat < 32 ∨ c = '\\' then none
    else do
      let (s, r) ← parseStr r
      some (c :: s, r)

/-- Is the character a decimal digit? -/
def isDig (c : Char) : Bool := 48 ≤ c.toNat && c.toNat ≤ 57

/-- Value of a digit string. -/
def digitsVal (l : List Char) : Nat := l.foldl (fun n c => n * 10 + (c.toNat - 48)) 0

/-- The optional fraction and exponent after the integer part: (consumed text, rest). -/
def parseFrac (l : List Char) : List Char × List Char :=
  match l with
  | '.' :: r =>
    let ds := r.takeWhile isDig
    if ds.isEmpty then ([], l) else ('.' :: ds, r.dropWhile isDig)
  | _ => ([], l)

/-- The optional exponent: (consumed text, rest). -/
def parseExp (l : List Char) : List Char × List Char :=
  match l with
  | e :: r =>
    if e = 'e' ∨ e = 'E' then
      let (sg, r') := match r with
        | c :: r' => if c = '+' ∨ c = '-' then ([c], r') else ([], r)
        | [] => ([], r)
      let ds := r'.takeWhile isDig
      if ds.isEmpty then ([], l) else (e :: sg ++ ds, r'.dropWhile isDig)
    else ([], l)
  | [] => ([], l)

/-- A number after an optional minus sign. -/
def parseNum (neg : Bool) (l : List Char) : Option (PyVal × List Char) :=
  match l with
  | [] => none
  | c :: r =>
    if isDig c then
      let ip := if c = '0' then ['0'] else (c :: r).takeWhile isDig
      let r1 := if c = '0' then r else (c :: r).dropWhile isDig
      let (fr, r2) := parseFrac r1
      let (ex, r3) := parseExp r2
      if fr.isEmpty && ex.isEmpty then
        some (.int (if neg then -(digitsVal ip : Int) else digitsVal ip), r3)
      else some (.float (String.ofList ((if neg then ['-'] else []) ++ ip ++ fr ++ ex)), r3)
    else none

/-- `p` literally at the front of `l`: the rest. -/
def stripPrefix : List Char → List Char → Option (List Char)
  | [], l => some l
  | a :: p, b :: l => if a = b then stripPrefix p l else none
  | _ :: _, [] => none

/-- Literals and numbers. -/
def parseAtom (l : List Char) : Option (PyVal × List Char) :=
  match stripPrefix "null".toList l with
  | some r => some (.none, r)
  | none => match stripPrefix "true".toList l with
    | some r => some (.bool true, r)
    | none => match stripPrefix "false".toList l with
      | some r => some (.bool false, r)
      | none => match stripPrefix "NaN".toList l with
        | some r => some (.float "NaN", r)
        | none => match stripPrefix "Infinity".toList l with
          | some r => some (.float "Infinity", r)
          | none => match stripPrefix "-Infinity".toList l with
            | some r => some (.float "-Infinity", r)
            | none => match l with
              | '-' :: r => parseNum true r
              | _ => parseNum false l

mutual
/-- `scan_once`.  The first argument bounds the recursion (the text length suffices). -/
def parseV : Nat → List Char → Option (PyVal × List Char)
  | 0, _ => none
  | f + 1, l =>
    match l with
    | '"' :: r => do
      let (s, r) ← parseStr r
      some (.str (String.ofList s), r)
    | '[' :: r =>
      match skipWs r with
      | ']' :: r => some (.list [], r)
      | r => do
        let (vs, r) ← parseL f r
        some (.list vs, r)
    | '{' :: r =>
      match skipWs r with
      | '}' :: r => some (.dict [], r)
      | r => do
        let (ms, r) ← parseD f r
        some (.dict (dictOfPairs ms), r)
    | l => parseAtom l
termination_by structural f => f
/-- Elements up to and including the closing bracket. -/
def parseL : Nat → List Char → Option (List PyVal × List Char)
  | 0, _ => none
  | f + 1, l => do
    let (v, r) ← parseV f l
    match skipWs r with
    | ']' :: r => some ([v], r)
    | ',' :: r => do
      let (vs, r) ← parseL f (skipWs r)
      some (v :: vs, r)
    | _ => none
termination_by structural f => f
/-- Members up to and including the closing brace. -/
def parseD : Nat → List Char → Option (List (String × PyVal) × List Char)
  | 0, _ => none
  | f + 1, l =>
    match l with
    | '"' :: r => do
      let (k, r) ← parseStr r
      match skipWs r with
      | ':' :: r => do
        let (v, r) ← parseV f (skipWs r)
        match skipWs r with
        | '}' :: r => some ([(String.ofList k, v)], r)
        | ',' :: r => do
          let (ms, r) ← parseD f (skipWs r)
          some ((String.ofList k, v) :: ms, r)
        | _ => none
      | _ => none
    | _ => none
termination_by structural f => f
end

/-- `json.loads(s)` of text. -/
def jsonLoads (s : String) : PyM PyVal :=
  let l := skipWs s.toList
  match parseV (l.length + 1) l with
  | some (v, r) => if (skipWs r).isEmpty then .ok v else .error .jsonDecodeError
  | none => .error .jsonDecodeError

end Verif
