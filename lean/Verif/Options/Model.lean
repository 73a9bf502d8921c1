import Verif.Dict
/-
Model of the declaration, validation and translation of cluster options:
dask-gateway-server/dask_gateway_server/options.py (server) and
dask-gateway/dask_gateway/options.py (client), with the part of dask-gateway/dask_gateway/client.py
that sends the options.

Values are JSON values (`Verif.Json`); the values a `Select` maps its keys to are of any type `V`.
Not modelled: widgets, the texts of error messages, defaults that are not JSON values, and the copy
that `Mapping.get_default` makes (values cannot change here).
-/
namespace Verif.Options

/-- The exceptions raised (`TypeError`, `ValueError`, `OverflowError`, `KeyError`) (options.py:85-120, 188-347). -/
inductive Err where
  | type
  | value
  | overflow
  | key
  deriving DecidableEq

/-! ### Numbers -/

/-- `n / d` rounded to the nearest integer, ties to even (the rounding of `float(n)`,
options.py:270). -/
def roundHalfEven (n d : Nat) : Nat :=
  let q := n / d
  let r := n % d
  if 2 * r < d then q else if d < 2 * r then q + 1 else q + q % 2

/-- `float(n)` for a natural number: 53 significant bits; `none` is `OverflowError`
(options.py:270). -/
def floatOfNat (n : Nat) : Option Nat :=
  if n < 2 ^ 53 then some n
  else
    let e := n.log2 - 52
    let r := roundHalfEven n (2 ^ e) * 2 ^ e
    if r < 2 ^ 1024 then some r else none

/-- `float(i)` (options.py:270; client options.py:273). -/
def floatOfInt : Int → Option Rat
  | .ofNat n => (floatOfNat n).map (fun m => (m : Rat))
  | .negSucc n => (floatOfNat (n + 1)).map (fun m => -(m : Rat))

/-- `a < b` in Python on JSON values of which one is a number (options.py:228, 230). -/
def pyLt (a b : Json) : Except Err Bool :=
  match a.asNum, b.asNum with
  | some x, some y => .ok (Num.lt x y)
  | _, _ => .error .type

/-- options.py:228 the first test of `Number.validate`; `null` is `None`. -/
def tooLow (lo x : Json) : Except Err Bool := if lo = .null then .ok false else pyLt x lo

/-- options.py:230 the second test of `Number.validate`. -/
def tooHigh (hi x : Json) : Except Err Bool := if hi = .null then .ok false else pyLt hi x

/-- options.py:227-232 `Number.validate`. -/
def numberValidate (lo hi x : Json) : Except Err Json :=
  match tooLow lo x with
  | .error e => .error e
  | .ok true => .error .value
  | .ok false =>
    match tooHigh hi x with
    | .error e => .error e
    | .ok true => .error .value
    | .ok false => .ok x

/-! ### Server-side fields -/

/-- The field classes (options.py:184, 204, 246, 267, 290, 334) with what `validate` reads: the
bounds (`null` is `None`), or the choices of a `Select` in order. -/
inductive Kind (V : Type) where
  | string
  | bool
  | integer (lo hi : Json)
  | float (lo hi : Json)
  | select (options : List (Str × V))
  | mapping
  deriving DecidableEq

/-- options.py:141-148 `Field`. -/
structure Field (V : Type) where
  name : Str
  kind : Kind V
  default : Json
  target : Str
  label : Str
  deriving DecidableEq

/-- options.py:247-250 `Integer.validate`: `isinstance(x, int)` holds of `bool`. -/
def integerValidate (lo hi x : Json) : Except Err Json :=
  match x with
  | .bool b => numberValidate lo hi (.bool b)
  | .num (.int i) => numberValidate lo hi (.num (.int i))
  | _ => .error .type

/-- options.py:268-273 `Float.validate`: an `int` (or `bool`) is converted first. -/
def floatValidate (lo hi x : Json) : Except Err Json :=
  match x with
  | .bool b => numberValidate lo hi (.num (.fin (if b then 1 else 0)))
  | .num (.int i) =>
    match floatOfInt i with
    | none => .error .overflow
    | some q => numberValidate lo hi (.num (.fin q))
  | .num n => numberValidate lo hi (.num n)
  | _ => .error .type

/-- options.py:188-191, 208-211, 247-250, 268-273, 312-317, 340-343 `validate`. -/
def validate {V : Type} : Kind V → Json → Except Err Json
  | .string, x => match x with
    | .str s => .ok (.str s)
    | _ => .error .type
  | .bool, x => match x with
    | .bool b => .ok (.bool b)
    | _ => .error .type
  | .integer lo hi, x => integerValidate lo hi x
  | .float lo hi, x => floatValidate lo hi x
  | .select options, x => match x with
    | .str s => if s ∈ Dict.keys options then .ok (.str s) else .error .value
    | _ => .error .type
  | .mapping, x => match x with
    | .obj d => .ok (.obj d)
    | _ => .error .type

/-- `a or b` on optional strings (options.py:147-148). -/
def orElse (a : Option Str) (b : Str) : Str :=
  match a with
  | none => b
  | some [] => b
  | some s => s

/-- options.py:142-148 `Field.__init__`: the default is checked, and kept as it was given. -/
def mkField {V : Type} (kind : Kind V) (name : Str) (default : Json) (label target : Option Str) :
    Except Err (Field V) :=
  match validate kind default with
  | .error e => .error e
  | .ok _ =>
    .ok { name, kind, default, target := orElse target name, label := orElse label name }

/-- options.py:218-224 `Number.__init__`: the bounds are normalised by `validate` itself, the
maximum after the minimum is set. -/
def mkBounds (check : Json → Json → Json → Except Err Json) (lo hi : Json) :
    Except Err (Json × Json) :=
  match (if lo = .null then .ok .null else check .null .null lo) with
  | .error e => .error e
  | .ok lo' =>
    match (if hi = .null then .ok .null else check lo' .null hi) with
    | .error e => .error e
    | .ok hi' => .ok (lo', hi')

/-- options.py:246-250 `Integer(...)`. -/
def mkInteger {V : Type} (name : Str) (default lo hi : Json) (label target : Option Str) :
    Except Err (Field V) :=
  match mkBounds integerValidate lo hi with
  | .error e => .error e
  | .ok (lo', hi') => mkField (.integer lo' hi') name default label target

/-- options.py:267-273 `Float(...)`. -/
def mkFloat {V : Type} (name : Str) (default lo hi : Json) (label target : Option Str) :
    Except Err (Field V) :=
  match mkBounds floatValidate lo hi with
  | .error e => .error e
  | .ok (lo', hi') => mkField (.float lo' hi') name default label target

/-- options.py:296-304 the loop of `Select.__init__`; a plain `key` is the pair of it and itself. -/
def selectMap {V : Type} : List (Json × V) → Except Err (List (Str × V))
  | [] => .ok []
  | (.str k, v) :: l =>
    match selectMap l with
    | .error e => .error e
    | .ok d => .ok ((k, v) :: d)
  | _ :: _ => .error .type

/-- options.py:291-310 `Select(...)`; a `null` default is the first key. -/
def mkSelect {V : Type} (name : Str) (options : List (Json × V)) (default : Json)
    (label target : Option Str) : Except Err (Field V) :=
  match selectMap options with
  | .error e => .error e
  | .ok [] => .error .value
  | .ok (e :: l) =>
    mkField (.select (Dict.ofList (e :: l))) name (if default = .null then .str e.1 else default)
      label target

/-- options.py:335-338 `Mapping(...)`. -/
def mkMapping {V : Type} (name : Str) (default : Json) (label target : Option Str) :
    Except Err (Field V) :=
  mkField .mapping name (if default = .null then .obj [] else default) label target

/-- options.py:185-186 `String(...)`. -/
def mkString {V : Type} (name : Str) (default : Json) (label target : Option Str) :
    Except Err (Field V) := mkField .string name default label target

/-- options.py:205-206 `Bool(...)`. -/
def mkBool {V : Type} (name : Str) (default : Json) (label target : Option Str) :
    Except Err (Field V) := mkField .bool name default label target

/-- options.py:93-96 the values of `parse_options`, in the order of the fields. -/
def parseFields {V : Type} (request : List (Str × Json)) :
    List (Field V) → Except Err (List (Str × Json))
  | [] => .ok []
  | f :: fs =>
    match validate f.kind ((lookup request f.name).getD f.default) with
    | .error e => .error e
    | .ok v =>
      match parseFields request fs with
      | .error e => .error e
      | .ok l => .ok ((f.name, v) :: l)

/-- options.py:85-96 `Options.parse_options`. -/
def parseOptions {V : Type} (fields : List (Field V)) (request : Json) :
    Except Err (List (Str × Json)) :=
  match request with
  | .obj r =>
    if (Dict.keys r).any (fun k => decide (k ∉ fields.map Field.name)) then .error .value
    else
      match parseFields r fields with
      | .error e => .error e
      | .ok l => .ok (Dict.ofList l)
  | _ => .error .type

/-- What a field contributes to the configuration: a JSON value, or a value of a `Select`
(options.py:170-174, 319-321). -/
inductive Val (V : Type) where
  | json (j : Json)
  | py (v : V)
  deriving DecidableEq

/-- options.py:170-174, 319-321 `transform`. -/
def transform {V : Type} (k : Kind V) (x : Json) : Except Err (Val V) :=
  match k with
  | .select options =>
    match validate (.select options) x with
    | .error e => .error e
    | .ok (.str s) =>
      match lookup options s with
      | none => .error .key
      | some v => .ok (.py v)
    | .ok _ => .error .type
  | _ => .ok (.json x)

/-- options.py:98-102 the values of `transform_options`. -/
def transformFields {V : Type} (options : List (Str × Json)) :
    List (Field V) → Except Err (List (Str × Val V))
  | [] => .ok []
  | f :: fs =>
    match transform f.kind ((lookup options f.name).getD f.default) with
    | .error e => .error e
    | .ok v =>
      match transformFields options fs with
      | .error e => .error e
      | .ok l => .ok ((f.target, v) :: l)

/-- options.py:98-102 `Options.transform_options`. -/
def transformOptions {V : Type} (fields : List (Field V)) (options : List (Str × Json)) :
    Except Err (List (Str × Val V)) :=
  match transformFields options fields with
  | .error e => .error e
  | .ok l => .ok (Dict.ofList l)

/-! ### The specification sent to the client -/

/-- options.py:152 -/
def kField : Str := "field".toList
/-- options.py:153 -/
def kLabel : Str := "label".toList
/-- options.py:154 -/
def kDefault : Str := "default".toList
/-- options.py:155 -/
def kSpec : Str := "spec".toList
/-- options.py:194, 214, 253, 276, 324, 349 -/
def kType : Str := "type".toList
/-- options.py:253, 276 -/
def kMin : Str := "min".toList
/-- options.py:253, 276 -/
def kMax : Str := "max".toList
/-- options.py:324 -/
def kOptions : Str := "options".toList

/-- options.py:193-194, 213-214, 252-253, 275-276, 323-324, 348-349 `json_type_spec`. -/
def typeSpec {V : Type} : Kind V → Json
  | .string => .obj [(kType, .str "string".toList)]
  | .bool => .obj [(kType, .str "bool".toList)]
  | .integer lo hi => .obj [(kType, .str "int".toList), (kMin, lo), (kMax, hi)]
  | .float lo hi => .obj [(kType, .str "float".toList), (kMin, lo), (kMax, hi)]
  | .select options =>
    .obj [(kType, .str "select".toList), (kOptions, .arr ((Dict.keys options).map .str))]
  | .mapping => .obj [(kType, .str "mapping".toList)]

/-- options.py:150-156 `json_spec`. -/
def jsonSpec {V : Type} (f : Field V) : Json :=
  .obj [(kField, .str f.name), (kLabel, .str f.label), (kDefault, f.default),
    (kSpec, typeSpec f.kind)]

/-! ### Client-side fields -/

/-- The client's field classes (client options.py:198, 213, 246, 268, 292, 321). -/
inductive CKind where
  | string
  | bool
  | integer (lo hi : Json)
  | float (lo hi : Json)
  | select (options : List Str)
  | mapping

/-- client options.py:147-157 `Field`: the current value is kept in the field. -/
structure CField where
  kind : CKind
  value : Json

/-- client options.py:237-242 `Number.validate`. -/
def cNumberValidate (lo hi x : Json) : Except Err Json :=
  match (if lo = .null then .ok false else pyLt x lo) with
  | .error e => .error e
  | .ok true => .error .value
  | .ok false =>
    match (if hi = .null then .ok false else pyLt hi x) with
    | .error e => .error e
    | .ok true => .error .value
    | .ok false => .ok x

/-- client options.py:249-252 `Integer.validate`. -/
def cIntegerValidate (lo hi x : Json) : Except Err Json :=
  match x with
  | .bool _ | .num (.int _) => cNumberValidate lo hi x
  | _ => .error .type

/-- client options.py:271-276 `Float.validate`. -/
def cFloatValidate (lo hi x : Json) : Except Err Json :=
  match x with
  | .bool b => cNumberValidate lo hi (.num (.fin (if b then 1 else 0)))
  | .num (.int i) =>
    match floatOfInt i with
    | none => .error .overflow
    | some q => cNumberValidate lo hi (.num (.fin q))
  | .num _ => cNumberValidate lo hi x
  | _ => .error .type

/-- client options.py:201-204, 216-219, 249-252, 271-276, 307-312, 324-327 `validate`. -/
def cvalidate : CKind → Json → Except Err Json
  | .string, x => match x with
    | .str _ => .ok x
    | _ => .error .type
  | .bool, x => match x with
    | .bool _ => .ok x
    | _ => .error .type
  | .integer lo hi, x => cIntegerValidate lo hi x
  | .float lo hi, x => cFloatValidate lo hi x
  | .select options, x => match x with
    | .str s => if s ∈ options then .ok x else .error .value
    | _ => .error .type
  | .mapping, x => match x with
    | .obj _ => .ok x
    | _ => .error .type

/-- client options.py:152-157 `Field.__init__`. -/
def mkCField (kind : CKind) (default : Json) : Except Err CField :=
  match cvalidate kind default with
  | .error e => .error e
  | .ok v => .ok { kind, value := v }

/-- client options.py:228-235 `Number.__init__` up to the call of the base class. -/
def cBounds (check : Json → Json → Json → Except Err Json) (lo hi : Json) :
    Except Err (Json × Json) :=
  match (if lo = .null then .ok .null else check .null .null lo) with
  | .error e => .error e
  | .ok lo' =>
    match (if hi = .null then .ok .null else check lo' .null hi) with
    | .error e => .error e
    | .ok hi' => .ok (lo', hi')

/-- client options.py:300-303 the options of a `Select` are all strings. -/
def strings : List Json → Except Err (List Str)
  | [] => .ok []
  | .str s :: l =>
    match strings l with
    | .error e => .error e
    | .ok t => .ok (s :: t)
  | _ :: _ => .error .type

/-- The keyword arguments given to a field class are among the ones it has (`TypeError` otherwise;
client options.py:166). -/
def only (allowed : List Str) (args : List (Str × Json)) : Bool :=
  (Dict.keys args).all (fun k => decide (k ∈ allowed))

/-- client options.py:159-166 the call of the field class registered for a type
(client options.py:139-144, 197, 212, 245, 267, 291, 320); an unregistered type is a `KeyError`. -/
def callType (typ : Str) (args : List (Str × Json)) (default : Json) : Except Err CField :=
  let arg := fun k => (lookup args k).getD .null
  if typ = "string".toList then
    if only [] args then mkCField .string default else .error .type
  else if typ = "bool".toList then
    if only [] args then mkCField .bool default else .error .type
  else if typ = "int".toList then
    if only [kMin, kMax] args then
      match cBounds cIntegerValidate (arg kMin) (arg kMax) with
      | .error e => .error e
      | .ok (lo, hi) => mkCField (.integer lo hi) default
    else .error .type
  else if typ = "float".toList then
    if only [kMin, kMax] args then
      match cBounds cFloatValidate (arg kMin) (arg kMax) with
      | .error e => .error e
      | .ok (lo, hi) => mkCField (.float lo hi) default
    else .error .type
  else if typ = "select".toList then
    if only [kOptions] args then
      match arg kOptions with
      | .arr [] => .error .value
      | .arr l =>
        match strings l with
        | .error e => .error e
        | .ok options => mkCField (.select options) default
      | _ => .error .type
    else .error .type
  else if typ = "mapping".toList then
    if only [] args then mkCField .mapping default else .error .type
  else .error .key

/-- client options.py:159-166 `Field._from_spec`: the name of the field and the field. -/
def fieldFromSpec (spec : Json) : Except Err (Str × CField) :=
  match spec with
  | .obj d =>
    match lookup d kField, lookup d kDefault, lookup d kLabel, lookup d kSpec with
    | some (.str name), some default, some _, some (.obj t) =>
      match lookup t kType with
      | some (.str typ) =>
        match callType typ (t.filter (fun e => e.1 ≠ kType)) default with
        | .error e => .error e
        | .ok f => .ok (name, f)
      | _ => .error .key
    | _, _, _, _ => .error .key
  | _ => .error .type

/-- The fields of client options.py:51 in order. -/
def fieldsFromSpec : List Json → Except Err (List (Str × CField))
  | [] => .ok []
  | s :: l =>
    match fieldFromSpec s with
    | .error e => .error e
    | .ok f =>
      match fieldsFromSpec l with
      | .error e => .error e
      | .ok fs => .ok (f :: fs)

/-- client options.py:46-51 `Options._from_spec`: an ordered dictionary of fields. -/
def fromSpec (spec : List Json) : Except Err (List (Str × CField)) :=
  match fieldsFromSpec spec with
  | .error e => .error e
  | .ok fs => .ok (Dict.ofList fs)

/-- client options.py:103-107, 171-175, 340-346 `options[key] = value` (a JSON value can always be
dumped as YAML). -/
def setOption (o : List (Str × CField)) (key : Str) (value : Json) :
    Except Err (List (Str × CField)) :=
  match lookup o key with
  | none => .error .key
  | some f =>
    match cvalidate f.kind value with
    | .error e => .error e
    | .ok v => .ok (Dict.set o key { f with value := v })

/-- An assignment that raises leaves the options as they were (client options.py:172, 341-343). -/
def assign (o : List (Str × CField)) (a : Str × Json) : List (Str × CField) :=
  match setOption o a.1 a.2 with
  | .error _ => o
  | .ok o' => o'

/-- `dict(options)` (client options.py:97-101, 126-127; client.py:531). -/
def asDict (o : List (Str × CField)) : List (Str × Json) := o.map (fun e => (e.1, e.2.value))

/-- client.py:523-538 `_submit`: the options sent to the server; `kwargs` are keyword arguments. -/
def submitted (o : List (Str × CField)) (kwargs : List (Str × Json)) : Json :=
  .obj (Dict.update (asDict o) kwargs)

end Verif.Options
