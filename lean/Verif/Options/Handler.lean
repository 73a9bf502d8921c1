import Verif.Options.Model
import Verif.Auth.Model
/-
Model of the handler of cluster options and of the options that a handler is given:
dask-gateway-server/dask_gateway_server/options.py:54-80, 104-108, utils.py:219-244, backends/base.py:89-104.
-/
namespace Verif.Options

/-- The kinds of parameters of a Python function (options.py:73-77). That a positional one may also be given by its name does not
matter for the calls made here. -/
inductive PKind where
  | positional
  | varPositional
  | keywordOnly
  | varKeyword
  deriving DecidableEq

/-- A parameter, and whether it has a default (options.py:73). -/
structure Param where
  kind : PKind
  default : Bool
  deriving DecidableEq

/-- Python's call of a function with `n` positional arguments and no others (options.py:78, 108): whether the parameters can be bound;
if not it is a `TypeError`. -/
def bind : List Param → Nat → Bool
  | [], n => decide (n = 0)
  | p :: l, n =>
    match p.kind with
    | .positional => if n = 0 then p.default && bind l 0 else bind l (n - 1)
    | .varPositional => bind l 0
    | .keywordOnly => p.default && bind l n
    | .varKeyword => bind l n

/-- A handler: its parameters, and what it gives for the options and, if it is given one, the user; `none` is an exception
(options.py:69-80). -/
structure Handler (V : Type) where
  params : List Param
  body : List (Str × Val V) → Option Auth.User → Option (List (Str × Val V))

/-- The exceptions of `get_configuration` (options.py:98-108): those of the fields, of the call, of the handler. -/
inductive ConfErr where
  | field (e : Err)
  | call
  | handler
  deriving DecidableEq

/-- The number of arguments of a call (options.py:78, 108). -/
def given : Option Auth.User → Nat
  | none => 1
  | some _ => 2

/-- The call of a handler (options.py:78, 108). -/
def Handler.call {V : Type} (h : Handler V) (options : List (Str × Val V)) (user : Option Auth.User) :
    Except ConfErr (List (Str × Val V)) :=
  if bind h.params (given user) then
    match h.body options user with
    | none => .error .handler
    | some c => .ok c
  else .error .call

/-- options.py:73-77 whether the handler is called with the options alone. -/
def Handler.alone {V : Type} (h : Handler V) : Bool :=
  decide (h.params.length = 1) && !h.params.any (fun p => decide (p.kind = .varPositional))

/-- options.py:69-80, 108: the call of `self.handler`. -/
def Handler.run {V : Type} (h : Handler V) (options : List (Str × Val V)) (user : Auth.User) :
    Except ConfErr (List (Str × Val V)) :=
  if h.alone then h.call options none else h.call options (some user)

/-- options.py:104-108 `get_configuration`. -/
def getConfiguration {V : Type} (fields : List (Field V)) (handler : Option (Handler V)) (options : List (Str × Json))
    (user : Auth.User) : Except ConfErr (List (Str × Val V)) :=
  match transformOptions fields options with
  | .error e => .error (.field e)
  | .ok conf =>
    match handler with
    | none => .ok conf
    | some h => h.run conf user

/-- What `Options` holds (options.py:54-62). -/
structure Declared (V : Type) where
  fields : List (Field V)
  handler : Option (Handler V)

/-- backends/base.py:43-54, 89-92: the options of a gateway, the same for all or given by a function of the user, which may raise. -/
inductive Offer (V : Type) where
  | same (o : Declared V)
  | byUser (f : Auth.User → Option (Declared V))

/-- base.py:89-92 `get_cluster_options`; `none` is an exception. -/
def Offer.get {V : Type} (o : Offer V) (user : Auth.User) : Option (Declared V) :=
  match o with
  | .same d => some d
  | .byUser f => f user

/-- base.py:94-104 `process_cluster_options`: the options as accepted and the configuration; `make` is the class of the configuration,
and `none` the `PublicException` that every exception becomes. -/
def processOptions {V C : Type} (o : Offer V) (make : List (Str × Val V) → Option C) (user : Auth.User) (request : Json) :
    Option (List (Str × Json) × C) :=
  match o.get user with
  | none => none
  | some d =>
    match parseOptions d.fields request with
    | .error _ => none
    | .ok asked =>
      match getConfiguration d.fields d.handler asked user with
      | .error _ => none
      | .ok over =>
        match make over with
        | none => none
        | some c => some (asked, c)

/-! ### `FrozenAttrDict` -/

/-- What reading an attribute gives (utils.py:227-230): a value of the mapping, a method of the class, the mapping itself, or
`AttributeError`. -/
inductive Attr (V : Type) where
  | value (v : Val V)
  | method
  | mapping
  | missing
  deriving DecidableEq

/-- The methods without underscores that `collections.abc.Mapping` has (utils.py:219). -/
def mappingMethods : List Str := ["get".toList, "items".toList, "keys".toList, "values".toList]

/-- utils.py:219-230: reading an attribute; `__getattr__` is called for those only that are not found otherwise. Names of Python's own,
which begin with two underscores or `_abc`, are left out. -/
def readAttr {V : Type} (m : List (Str × Val V)) (name : Str) : Attr V :=
  if name = "_mapping".toList then .mapping
  else if name ∈ mappingMethods then .method
  else
    match lookup m name with
    | some v => .value v
    | none => .missing

/-- utils.py:232-233 `__getitem__`; `none` is `KeyError`. -/
def item {V : Type} (m : List (Str × Val V)) (name : Str) : Option (Val V) := lookup m name

end Verif.Options
