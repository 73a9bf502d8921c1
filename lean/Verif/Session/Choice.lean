import Verif.Session.Model
import Verif.Settings.Model
/-
Model of how a client gets its authentication: dask-gateway/dask_gateway/auth.py:13-58, 62-63, 103-109, 154-162. Python's
import system and the database of accounts are parameters.
-/
namespace Verif.Session

open Verif.Settings (FErr formatTemplate)

/-- An instance of `GatewayAuth` (auth.py:59, 100, 119, 151); the values are those of the settings, of whatever type. -/
inductive AuthObj where
  | basic (username password : Json)
  | kerberos
  | hub (token : Json)
  | custom (name : Str) (kwargs : List (Str × Json))

/-- What `get_auth` raises (auth.py:26-58). -/
inductive AuthErr where
  /-- the errors of templates (53) -/
  | template (e : FErr)
  /-- `AttributeError`: the settings for arguments are no dictionary (53) -/
  | kwargs
  /-- `ImportError` (17, 21, 23) -/
  | missing
  /-- `TypeError`: neither text nor callable (49-50), or what was imported is not callable (54) -/
  | uncallable
  /-- `TypeError`: a keyword argument that the constructor does not have (54) -/
  | keyword
  /-- `ValueError` of `JupyterHubAuth` (157-161) -/
  | token
  /-- the name of the user is not known (105) -/
  | nobody
  /-- `TypeError`: no `GatewayAuth` (56-57) -/
  | notAuth
  /-- whatever else a constructor raises (54) -/
  | raised
  deriving DecidableEq

/-- Something in Python (auth.py:19, 54): a class or function, which gives a `GatewayAuth`, something else (`none`) or raises; or
something that cannot be called. -/
inductive Thing where
  | callable (f : List (Str × Json) → Except AuthErr (Option AuthObj))
  | other

/-- The process of the client (auth.py:13-23, 105, 156): environment, the account it runs as, and what can be imported. -/
structure Python where
  env : Str → Option Str
  account : Option Str
  modules : Str → Bool
  attr : Str → Str → Option Thing

/-- auth.py:13-23 `_import_object`: a module itself is not callable. -/
def importObject (py : Python) (name : Str) : Except AuthErr Thing :=
  if name.contains '.' then
    let package := ((name.reverse.dropWhile (fun c => c != '.')).drop 1).reverse
    if py.modules package then
      match py.attr package (Addr.afterLast '.' name) with
      | none => .error .missing
      | some t => .ok t
    else .error .missing
  else if py.modules name then .ok .other
  else .error .missing

/-- The first of these that is there and not empty (`getpass.getuser`, auth.py:105). -/
def firstOf (env : Str → Option Str) : List Str → Option Str
  | [] => none
  | n :: l =>
    match env n with
    | none => firstOf env l
    | some [] => firstOf env l
    | some v => some v

/-- `getpass.getuser()` (auth.py:105). -/
def getuser (py : Python) : Option Str :=
  match firstOf py.env ["LOGNAME".toList, "USER".toList, "LNAME".toList, "USERNAME".toList] with
  | some v => some v
  | none => py.account

/-- An argument that may be `None` (auth.py:103, 154). -/
def argument (kwargs : List (Str × Json)) (name : Str) : Option Json :=
  match kwargs.lookup name with
  | none => none
  | some .null => none
  | some v => some v

/-- auth.py:103-109 `BasicAuth.__init__`. -/
def makeBasic (py : Python) (kwargs : List (Str × Json)) : Except AuthErr (Option AuthObj) :=
  if kwargs.any (fun e => decide (e.1 ≠ "username".toList) && decide (e.1 ≠ "password".toList)) then .error .keyword
  else
    let password := (argument kwargs "password".toList).getD (.str [])
    match argument kwargs "username".toList with
    | some u => .ok (some (.basic u password))
    | none =>
      match getuser py with
      | none => .error .nobody
      | some u => .ok (some (.basic (.str u) password))

/-- auth.py:62-63, 119 `KerberosAuth`: the arguments are ignored. -/
def makeKerberos (_ : List (Str × Json)) : Except AuthErr (Option AuthObj) := .ok (some .kerberos)

/-- auth.py:154-162 `JupyterHubAuth.__init__`. -/
def makeHub (py : Python) (kwargs : List (Str × Json)) : Except AuthErr (Option AuthObj) :=
  if kwargs.any (fun e => decide (e.1 ≠ "api_token".toList)) then .error .keyword
  else
    match argument kwargs "api_token".toList with
    | some t => .ok (some (.hub t))
    | none =>
      match py.env "JUPYTERHUB_API_TOKEN".toList with
      | none => .error .token
      | some t => .ok (some (.hub (.str t)))

/-- auth.py:39-48 -/
def byName (py : Python) (name : Str) : Except AuthErr Thing :=
  if name = "kerberos".toList then .ok (.callable makeKerberos)
  else if name = "basic".toList then .ok (.callable (makeBasic py))
  else if name = "jupyterhub".toList then .ok (.callable (makeHub py))
  else importObject py name

/-- The argument of `Gateway(auth=...)` (auth.py:26). -/
inductive AuthArg where
  | absent
  | instance_ (a : AuthObj)
  | text (s : Str)
  | thing (t : Thing)

/-- What is false in Python (auth.py:52). -/
def falsy : Json → Bool
  | .null => true
  | .bool b => !b
  | .num (.int i) => decide (i = 0)
  | .num (.fin q) => decide (q = 0)
  | .num _ => false
  | .str s => s.isEmpty
  | .arr l => l.isEmpty
  | .obj l => l.isEmpty

/-- The entries of auth.py:53. -/
def formatKwargs (env : Str → Option Str) : List (Str × Json) → Except AuthErr (List (Str × Json))
  | [] => .ok []
  | (k, v) :: l =>
    match formatTemplate env v with
    | .error e => .error (.template e)
    | .ok w =>
      match formatKwargs env l with
      | .error e => .error e
      | .ok r => .ok ((k, w) :: r)

/-- auth.py:52-53 -/
def authKwargs (env : Str → Option Str) (conf : Json) : Except AuthErr (List (Str × Json)) :=
  if falsy conf then .ok []
  else
    match conf with
    | .obj l => formatKwargs env l
    | _ => .error .kwargs

/-- auth.py:52-58 -/
def construct (py : Python) (kwargs : Json) : Thing → Except AuthErr AuthObj
  | .other =>
    match authKwargs py.env kwargs with
    | .error e => .error e
    | .ok _ => .error .uncallable
  | .callable f =>
    match authKwargs py.env kwargs with
    | .error e => .error e
    | .ok l =>
      match f l with
      | .error e => .error e
      | .ok none => .error .notAuth
      | .ok (some a) => .ok a

/-- auth.py:38-50 for a text -/
def fromText (py : Python) (kwargs : Json) (s : Str) : Except AuthErr AuthObj :=
  match byName py s with
  | .error e => .error e
  | .ok t => construct py kwargs t

/-- auth.py:26-58 `get_auth`, with the settings `gateway.auth.type` and `gateway.auth.kwargs`. -/
def getAuth (py : Python) (type kwargs : Json) : AuthArg → Except AuthErr AuthObj
  | .instance_ a => .ok a
  | .text s => fromText py kwargs s
  | .thing .other => .error .uncallable
  | .thing (.callable f) => construct py kwargs (.callable f)
  | .absent =>
    match type with
    | .str s => fromText py kwargs s
    | _ => .error .uncallable

/-- The hooks of an instance (auth.py:111-116, 124-146, 164-165): those of Kerberos and of other classes are parameters; a value that is
no text has no `encode` and cannot be appended to a text. -/
def AuthObj.hooks (kerberos : Hooks) (custom : Str → List (Str × Json) → Hooks) : AuthObj → Hooks
  | .basic (.str u) (.str p) => basicHooks u p
  | .basic _ _ => { pre := none, post := fun _ => true }
  | .kerberos => kerberos
  | .hub (.str t) => hubHooks t
  | .hub _ => { pre := none, post := fun _ => true }
  | .custom n k => custom n k

end Verif.Session
