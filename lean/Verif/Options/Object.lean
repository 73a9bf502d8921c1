import Verif.Options.Model
/-
Model of the options object of the client as users handle it: dask-gateway/dask_gateway/options.py:46-136 with the methods that
Python's `MutableMapping` adds, and its form in a notebook: 53-85, 168-197, 206-209, 221-224, 254-265, 278-288, 314-317, 329-393.

The form has one input for each field; it is made once (54, 71-72). Inputs are those of ipywidgets as documented: setting one to the
value it has does nothing, setting it to another calls the handler; bounded inputs move values to the nearest bound. Booleans in inputs
for integers are left as they are (`True == 1`).
-/
namespace Verif.Options

/-- Exceptions (options.py:101, 107, 122, 172). -/
inductive Exc where
  /-- `AttributeError`: options.py:110, 113. -/
  | noAttribute
  /-- `TypeError("Cannot delete fields")`: options.py:122. -/
  | noDelete
  | err (e : Err)
  /-- `RecursionError`, if handlers of inputs call each other without end (options.py:184). -/
  | recursion
  deriving DecidableEq

/-- YAML: `yaml.safe_dump` of a dictionary that is not empty (options.py:333) and `yaml.safe_load` of a text that is not blank, `none` if
it fails (364). Every theorem names what it needs of them. -/
structure Yaml where
  dump : List (Str × Json) → Str
  load : Str → Option Json

/-- `str.strip` (options.py:363): `true` for a blank text. -/
def blank (s : Str) : Bool := s.all Char.isWhitespace

/-- What an input shows of a value: options.py:175, 209, 224, 257, 281, 317, 329-333. -/
def render (y : Yaml) : CKind → Json → Json
  | .mapping, .obj [] => .str []
  | .mapping, .obj (e :: d) => .str (y.dump (e :: d))
  | _, v => v

/-- options.py:261 -/
def lowInt : Json → Int
  | .num (.int i) => i
  | _ => -(2 ^ 63)

/-- options.py:262 -/
def highInt : Json → Int
  | .num (.int i) => i
  | _ => 2 ^ 63 - 1

/-- options.py:286 `self.min or float("-inf")`. -/
def lowFloat : Json → Num
  | .num (.fin q) => if q = 0 then .ninf else .fin q
  | .num n => n
  | _ => .ninf

/-- options.py:287 `self.max or float("inf")`. -/
def highFloat : Json → Num
  | .num (.fin q) => if q = 0 then .pinf else .fin q
  | .num n => n
  | _ => .pinf

/-- The value of an input that is set to `w` (options.py:254-265, 278-288): inputs without bounds, and other inputs, take it as it is. -/
def clamp : CKind → Json → Json
  | .integer lo hi, .num (.int i) =>
    if lo = .null ∧ hi = .null then .num (.int i) else .num (.int (min (max i (lowInt lo)) (highInt hi)))
  | .float lo hi, .num n =>
    if lo = .null ∧ hi = .null then .num n
    else
      let n := if Num.lt n (lowFloat lo) then lowFloat lo else n
      .num (if Num.lt (highFloat hi) n then highFloat hi else n)
  | _, w => w

/-- The options object: options.py:46-47, and for each field its input, if there is a form (181-187), and whether the cross is shown
beside it (372-376). -/
structure Obj where
  fields : List (Str × CField)
  input : Str → Option Json
  cross : Str → Bool

/-- The input of a field gets a value (options.py:174-175). -/
def Obj.withInput (o : Obj) (k : Str) (w : Json) : Obj := { o with input := fun k' => if k' = k then some w else o.input k' }

/-- options.py:372, 376 -/
def Obj.withCross (o : Obj) (k : Str) (b : Bool) : Obj := { o with cross := fun k' => if k' = k then b else o.cross k' }

/-- The handlers of inputs, options.py:183-184 and, for mappings, 359-370; `setter` is `self.set`. -/
def handle (y : Yaml) (setter : Obj → Json → Obj × Option Exc) (o : Obj) (k : Str) : CKind → Json → Obj × Option Exc
  | .mapping, .str s =>
    match (if blank s then some (.obj []) else y.load s) with
    | none => (o.withCross k true, none)
    | some d =>
      match setter o d with
      | (o', none) => (o'.withCross k false, none)
      | (o', some _) => (o'.withCross k true, none)
  | _, w => setter o w

/-- options.py:103-107, 171-175, 340-346: a field is set, and its input, whose handler sets the field again if the input changed. `n` is
how deep calls may go. -/
def Obj.set (y : Yaml) : Nat → Obj → Str → Json → Obj × Option Exc
  | 0, o, _, _ => (o, some .recursion)
  | n + 1, o, k, v =>
    match setOption o.fields k v with
    | .error e => (o, some (.err e))
    | .ok fs =>
      match lookup fs k, o.input k with
      | some f, some w =>
        let w' := clamp f.kind (render y f.kind f.value)
        if w' = w then ({ o with fields := fs }, none)
        else handle y (fun o v => Obj.set y n o k v) (({ o with fields := fs } : Obj).withInput k w') k f.kind w'
      | _, _ => ({ o with fields := fs }, none)

/-- A user enters `w` in the input of a field: options.py:183-187, 359-391. -/
def Obj.enter (y : Yaml) (n : Nat) (o : Obj) (k : Str) (w : Json) : Obj :=
  match lookup o.fields k, o.input k with
  | some f, some w0 =>
    let w' := clamp f.kind w
    if w' = w0 then o else (handle y (fun o v => o.set y n k v) (o.withInput k w') k f.kind w').1
  | _, _ => o

/-- options.py:53-72 `_widget`: the form is made, unless there is one. -/
def Obj.form (y : Yaml) (o : Obj) : Obj :=
  { o with
    input := fun k => match o.input k with
      | some w => some w
      | none => (lookup o.fields k).map (fun f => clamp f.kind (render y f.kind f.value)) }

/-- What users do with an options object (options.py:109-136 and `MutableMapping`). -/
inductive Op where
  | getItem (k : Str)
  | getAttr (k : Str)
  | setItem (k : Str) (v : Json)
  | setAttr (k : Str) (v : Json)
  | delItem (k : Str)
  | delAttr (k : Str)
  | get (k : Str) (default : Json)
  | contains (k : Str)
  | names
  | len
  | pop (k : Str) (default : Option Json)
  | popItem
  | clear
  | update (l : List (Str × Json))
  | setDefault (k : Str) (v : Json)
  /-- `_ipython_display_`: options.py:74-80. -/
  | display
  /-- Something is entered in the form. -/
  | enter (k : Str) (w : Json)

/-- What they get (options.py:97-136). -/
inductive Res where
  | done
  | value (v : Json)
  | flag (b : Bool)
  | number (n : Nat)
  | list (l : List Str)
  /-- An attribute of the class, such as a method. -/
  | member
  | raised (e : Exc)
  deriving DecidableEq

/-- Attributes of the object that are not options: options.py:46-136, `MutableMapping`; all names with two underscores at the start are
counted among them. -/
def members : List Str :=
  ["get", "keys", "items", "values", "pop", "popitem", "clear", "update", "setdefault", "_fields", "_from_spec", "_widget",
    "_cached_widget", "_ipython_display_", "_repr_pretty_", "_get", "_set", "_abc_impl"].map String.toList

/-- Python finds an attribute without `__getattr__` (options.py:109-110). -/
def isMember (k : Str) : Bool := decide (k ∈ members) || decide (k.take 2 = ['_', '_'])

/-- options.py:97-101 -/
def Obj.read (o : Obj) (k : Str) (missing : Exc) : Res :=
  match lookup o.fields k with
  | some f => .value f.value
  | none => .raised missing

/-- The error of options.py:107 for attributes, 113. -/
def asAttribute : Exc → Exc
  | .err .key => .noAttribute
  | e => e

/-- The answer to an assignment (options.py:112-119). -/
def answer (r : Obj × Option Exc) : Obj × Res :=
  match r.2 with
  | none => (r.1, .done)
  | some e => (r.1, .raised e)

/-- `MutableMapping.update`: one after the other, up to the first that fails (options.py:118-119). -/
def Obj.update (y : Yaml) (n : Nat) : Obj → List (Str × Json) → Obj × Option Exc
  | o, [] => (o, none)
  | o, (k, v) :: l =>
    match o.set y n k v with
    | (o', none) => Obj.update y n o' l
    | (o', some e) => (o', some e)

/-- One operation (options.py:109-136). -/
def Obj.step (y : Yaml) (n : Nat) (o : Obj) : Op → Obj × Res
  | .getItem k => (o, o.read k (.err .key))
  | .getAttr k => (o, if isMember k then .member else o.read k .noAttribute)
  | .setItem k v => answer (o.set y n k v)
  | .setAttr k v =>
    match o.set y n k v with
    | (o', none) => (o', .done)
    | (o', some e) => (o', .raised (asAttribute e))
  | .delItem _ => (o, .raised .noDelete)
  | .delAttr _ => (o, .raised .noDelete)
  | .get k d =>
    match o.read k (.err .key) with
    | .value v => (o, .value v)
    | _ => (o, .value d)
  | .contains k =>
    match o.read k (.err .key) with
    | .value _ => (o, .flag true)
    | _ => (o, .flag false)
  | .names => (o, .list (Dict.keys o.fields))
  | .len => (o, .number o.fields.length)
  | .pop k d =>
    match o.read k (.err .key), d with
    | .value _, _ => (o, .raised .noDelete)
    | _, some d => (o, .value d)
    | _, none => (o, .raised (.err .key))
  | .popItem => (o, .raised (if o.fields = [] then .err .key else .noDelete))
  | .clear => (o, if o.fields = [] then .done else .raised .noDelete)
  | .update l => answer (Obj.update y n o l)
  | .setDefault k v =>
    match o.read k (.err .key) with
    | .value w => (o, .value w)
    | _ =>
      match o.set y n k v with
      | (o', none) => (o', .value v)
      | (o', some e) => (o', .raised e)
  | .display => (o.form y, .done)
  | .enter k w => (o.enter y n k w, .done)

/-- A history (options.py:109-136). -/
def Obj.run (y : Yaml) (n : Nat) (o : Obj) (ops : List Op) : Obj := ops.foldl (fun o op => (o.step y n op).1) o

/-- The object as `Gateway.cluster_options` returns it (options.py:46-51). -/
def Obj.new (fields : List (Str × CField)) : Obj := ⟨fields, fun _ => none, fun _ => false⟩

end Verif.Options
