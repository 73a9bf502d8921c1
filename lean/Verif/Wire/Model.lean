import Verif.Dict
/-
Model of the texts that messages travel in: JSON as Python's `json.dumps` writes it and as `json.loads` and Go's
`encoding/json` read it. Used wherever the programs talk to each other: dask-gateway/dask_gateway/client.py:397,
408, 436, 536, 669, 695, scheduler_preload.py:68, 369, dask-gateway-server/dask_gateway_server/routes.py:17, 78-265,
backends/base.py:115, backends/db_base.py:73, 78, backends/jobqueue/base.py:100, 111,
backends/jobqueue/launcher.py:9, 72, backends/kubernetes/utils.py:66, proxy/core.py:408, 417 and
dask-gateway-proxy/cmd/dask-gateway-proxy/main.go:257, 281.

These libraries are not part of the repository. They are modelled by the grammar they share; a Python `str` with lone
surrogates, keys that are not strings, and the limits of nesting are not modelled.
-/
namespace Verif.Wire

/-- How floats are written and read (`float.__repr__` within `json.dumps`, `float` within `json.loads`, at
db_base.py:73, 78). Parameters of the model. -/
structure Floats where
  write : Rat → Str
  read : Str → Num

/-! ### Writing -/

/-- A digit of `'\\u{0:04x}'` in the encoder (core.py:408). -/
def hexDigit (n : Nat) : Char := if n < 10 then Char.ofNat (48 + n) else Char.ofNat (87 + n)

/-- `'\\u{0:04x}'.format(n)` in the encoder (core.py:408). -/
def hex4 (n : Nat) : Str :=
  ['\\', 'u', hexDigit (n / 4096 % 16), hexDigit (n / 256 % 16), hexDigit (n / 16 % 16), hexDigit (n % 16)]

/-- `ensure_ascii`: a character within a string (core.py:408). -/
def escape (c : Char) : Str :=
  if c = '"' then ['\\', '"']
  else if c = '\\' then ['\\', '\\']
  else if c = '\n' then ['\\', 'n']
  else if c = '\r' then ['\\', 'r']
  else if c = '\t' then ['\\', 't']
  else if c.toNat = 12 then ['\\', 'f']
  else if c.toNat = 8 then ['\\', 'b']
  else if 32 ≤ c.toNat ∧ c.toNat ≤ 126 then [c]
  else if c.toNat < 65536 then hex4 c.toNat
  else hex4 (55296 + (c.toNat - 65536) / 1024) ++ hex4 (56320 + (c.toNat - 65536) % 1024)

/-- The characters of a string, escaped, with the closing quote (core.py:408). -/
def writeChars : Str → Str
  | [] => ['"']
  | c :: s => escape c ++ writeChars s

/-- A string (core.py:408). -/
def writeStr (s : Str) : Str := '"' :: writeChars s

/-- `int.__repr__` (core.py:408). -/
def writeInt (i : Int) : Str := if i < 0 then '-' :: Nat.toDigits 10 i.natAbs else Nat.toDigits 10 i.natAbs

/-- A number; `json.dumps` has `allow_nan` set (db_base.py:73). -/
def writeNum (F : Floats) : Num → Str
  | .int i => writeInt i
  | .fin q => F.write q
  | .pinf => "Infinity".toList
  | .ninf => "-Infinity".toList
  | .nan => "NaN".toList

mutual
/-- `json.dumps` (core.py:408, db_base.py:73, jobqueue/base.py:100), with the default separators. -/
def dumps (F : Floats) : Json → Str
  | .null => "null".toList
  | .bool true => "true".toList
  | .bool false => "false".toList
  | .num n => writeNum F n
  | .str s => writeStr s
  | .arr [] => ['[', ']']
  | .arr (v :: l) => '[' :: (dumps F v ++ dumpsItems F l)
  | .obj [] => ['{', '}']
  | .obj ((k, v) :: l) => '{' :: (writeStr k ++ [':', ' '] ++ dumps F v ++ dumpsEntries F l)
/-- The items after the first, with the closing bracket (core.py:408). -/
def dumpsItems (F : Floats) : List Json → Str
  | [] => [']']
  | v :: l => ',' :: ' ' :: (dumps F v ++ dumpsItems F l)
/-- The entries after the first, with the closing brace (core.py:408). -/
def dumpsEntries (F : Floats) : List (Str × Json) → Str
  | [] => ['}']
  | (k, v) :: l => ',' :: ' ' :: (writeStr k ++ [':', ' '] ++ dumps F v ++ dumpsEntries F l)
end

/-! ### Reading -/

/-- White space between tokens, in `json.loads` and in Go alike (routes.py:120, main.go:281). -/
def isWs (c : Char) : Bool := c == ' ' || c == '\t' || c == '\n' || c == '\r'

/-- White space is skipped (routes.py:120, main.go:281). -/
def skipWs (s : Str) : Str := s.dropWhile isWs

/-- The value of a hexadecimal digit (routes.py:120, main.go:281). -/
def hexVal (c : Char) : Option Nat :=
  if 48 ≤ c.toNat ∧ c.toNat ≤ 57 then some (c.toNat - 48)
  else if 97 ≤ c.toNat ∧ c.toNat ≤ 102 then some (c.toNat - 87)
  else if 65 ≤ c.toNat ∧ c.toNat ≤ 70 then some (c.toNat - 55)
  else none

/-- Four hexadecimal digits (routes.py:120, main.go:281). -/
def hexVal4 (a b c d : Char) : Option Nat :=
  match hexVal a, hexVal b, hexVal c, hexVal d with
  | some a, some b, some c, some d => some (a * 4096 + b * 256 + c * 16 + d)
  | _, _, _, _ => none

/-- The escapes of one character (routes.py:120, main.go:281). -/
def unescape (c : Char) : Option Nat :=
  if c = '"' then some 34
  else if c = '\\' then some 92
  else if c = '/' then some 47
  else if c = 'b' then some 8
  else if c = 'f' then some 12
  else if c = 'n' then some 10
  else if c = 'r' then some 13
  else if c = 't' then some 9
  else none

/-- The code units of a string up to its closing quote, and the rest (routes.py:120, main.go:281). Control characters
are refused. -/
def readUnits : Str → Option (List Nat × Str)
  | [] => none
  | '"' :: s => some ([], s)
  | ['\\'] => none
  | '\\' :: 'u' :: s =>
    match s with
    | a :: b :: c :: d :: t =>
      match hexVal4 a b c d, readUnits t with
      | some n, some (l, r) => some (n :: l, r)
      | _, _ => none
    | _ => none
  | '\\' :: x :: s =>
    match unescape x, readUnits s with
    | some n, some (l, r) => some (n :: l, r)
    | _, _ => none
  | x :: s =>
    if x.toNat < 32 then none
    else match readUnits s with
      | some (l, r) => some (x.toNat :: l, r)
      | none => none

/-- A first half of a pair (routes.py:120, main.go:281). -/
def isHigh (n : Nat) : Bool := decide (55296 ≤ n ∧ n < 56320)

/-- A second half of a pair (routes.py:120, main.go:281). -/
def isLow (n : Nat) : Bool := decide (56320 ≤ n ∧ n < 57344)

/-- Pairs of code units are one character (routes.py:120, main.go:281). A half without the other is not modelled:
Python keeps it, Go replaces it. -/
def combine : List Nat → Option Str
  | [] => some []
  | [u] => if isHigh u || isLow u then none else some [Char.ofNat u]
  | u :: v :: l =>
    if isHigh u then
      if isLow v then (combine l).map (fun s => Char.ofNat (65536 + (u - 55296) * 1024 + (v - 56320)) :: s) else none
    else if isLow u then none
    else (combine (v :: l)).map (fun s => Char.ofNat u :: s)

/-- A string after its opening quote, and the rest (routes.py:120, main.go:281). -/
def readStr (s : Str) : Option (Str × Str) :=
  match readUnits s with
  | none => none
  | some (l, r) => (combine l).map (fun t => (t, r))

/-- The digits at the start of a text (routes.py:120, main.go:281). -/
def digitsOf (s : Str) : Str := s.takeWhile Char.isDigit

/-- What comes after the digits (routes.py:120, main.go:281). -/
def afterDigits (s : Str) : Str := s.dropWhile Char.isDigit

/-- `(\.\d+)?` (routes.py:120, main.go:281): the text that is taken and the rest. -/
def readFrac (s : Str) : Str × Str :=
  match s with
  | '.' :: t => if digitsOf t = [] then ([], s) else ('.' :: digitsOf t, afterDigits t)
  | _ => ([], s)

/-- `([eE][-+]?\d+)?` (routes.py:120, main.go:281): the text that is taken and the rest. -/
def readExp (s : Str) : Str × Str :=
  match s with
  | [] => ([], s)
  | e :: t =>
    if e = 'e' ∨ e = 'E' then
      match t with
      | [] => ([], s)
      | g :: u =>
        if g = '+' ∨ g = '-' then
          if digitsOf u = [] then ([], s) else (e :: g :: digitsOf u, afterDigits u)
        else if digitsOf t = [] then ([], s) else (e :: digitsOf t, afterDigits t)
    else ([], s)

/-- `(0|[1-9]\d*)(\.\d+)?([eE][-+]?\d+)?` after the sign (routes.py:120, main.go:281). After a zero the grammar stops
and the next digit is an error for the reader; here it is one at once. -/
def readAbs (F : Floats) (neg : Bool) (s : Str) : Option (Num × Str) :=
  let d := digitsOf s
  if d = [] then none
  else if d.head? = some '0' ∧ d ≠ ['0'] then none
  else
    let sign : Str := if neg then ['-'] else []
    let f := readFrac (afterDigits s)
    let e := readExp f.2
    if f.1 = [] ∧ e.1 = [] then
      let n : Int := Nat.ofDigitChars 10 d 0
      some (.int (if neg then -n else n), e.2)
    else some (F.read (sign ++ d ++ f.1 ++ e.1), e.2)

/-- A number (routes.py:120, main.go:281); `py` tells whether the constants of Python are read. -/
def readNum (F : Floats) (py : Bool) (s : Str) : Option (Num × Str) :=
  if py && "NaN".toList.isPrefixOf s then some (.nan, s.drop 3)
  else if py && "Infinity".toList.isPrefixOf s then some (.pinf, s.drop 8)
  else if py && "-Infinity".toList.isPrefixOf s then some (.ninf, s.drop 9)
  else match s with
    | '-' :: t => readAbs F true t
    | _ => readAbs F false s

/-- A word or a number (routes.py:120, main.go:281). -/
def readAtom (F : Floats) (py : Bool) (s : Str) : Option (Json × Str) :=
  if "null".toList.isPrefixOf s then some (.null, s.drop 4)
  else if "true".toList.isPrefixOf s then some (.bool true, s.drop 4)
  else if "false".toList.isPrefixOf s then some (.bool false, s.drop 5)
  else (readNum F py s).map (fun p => (.num p.1, p.2))

mutual
/-- A value and the rest (routes.py:120, main.go:281). The number bounds the nesting; the length of the text is enough
(`loads`). Objects are read as the list of their entries. -/
def readVal (F : Floats) (py : Bool) : Nat → Str → Option (Json × Str)
  | 0, _ => none
  | n + 1, s =>
    match s with
    | '"' :: t => (readStr t).map (fun p => (.str p.1, p.2))
    | '[' :: t =>
      match skipWs t with
      | ']' :: r => some (.arr [], r)
      | u => (readItems F py n u).map (fun p => (.arr p.1, p.2))
    | '{' :: t =>
      match skipWs t with
      | '}' :: r => some (.obj [], r)
      | u => (readEntries F py n u).map (fun p => (.obj p.1, p.2))
    | _ => readAtom F py s
/-- The items of a list (routes.py:120, main.go:281). -/
def readItems (F : Floats) (py : Bool) : Nat → Str → Option (List Json × Str)
  | 0, _ => none
  | n + 1, s =>
    match readVal F py n s with
    | none => none
    | some (v, r) =>
      match skipWs r with
      | ',' :: u => (readItems F py n (skipWs u)).map (fun p => (v :: p.1, p.2))
      | ']' :: u => some ([v], u)
      | _ => none
/-- The entries of an object (routes.py:120, main.go:281). -/
def readEntries (F : Floats) (py : Bool) : Nat → Str → Option (List (Str × Json) × Str)
  | 0, _ => none
  | n + 1, s =>
    match s with
    | '"' :: t =>
      match readStr t with
      | none => none
      | some (k, r) =>
        match skipWs r with
        | ':' :: u =>
          match readVal F py n (skipWs u) with
          | none => none
          | some (v, r2) =>
            match skipWs r2 with
            | ',' :: w => (readEntries F py n (skipWs w)).map (fun p => ((k, v) :: p.1, p.2))
            | '}' :: w => some ([(k, v)], w)
            | _ => none
        | _ => none
    | _ => none
end

/-- A whole text is read (routes.py:120, main.go:281): white space around it and nothing else. -/
def readAll (F : Floats) (py : Bool) (s : Str) : Option Json :=
  match readVal F py (s.length + 1) (skipWs s) with
  | none => none
  | some (v, r) => if skipWs r = [] then some v else none

mutual
/-- `dict(pairs)` for every object of `json.loads` (routes.py:120): the last entry for a key counts. -/
def asDicts : Json → Json
  | .arr l => .arr (asDictsL l)
  | .obj l => .obj (Dict.ofList (asDictsO l))
  | .null => .null
  | .bool b => .bool b
  | .num n => .num n
  | .str s => .str s
/-- The items of a list (routes.py:120). -/
def asDictsL : List Json → List Json
  | [] => []
  | v :: l => asDicts v :: asDictsL l
/-- The entries of an object (routes.py:120). -/
def asDictsO : List (Str × Json) → List (Str × Json)
  | [] => []
  | (k, v) :: l => (k, asDicts v) :: asDictsO l
end

/-- `json.loads` (routes.py:120, db_base.py:78, jobqueue/base.py:111, launcher.py:72, kubernetes/utils.py:66). -/
def loads (F : Floats) (s : Str) : Option Json := (readAll F true s).map asDicts

end Verif.Wire
