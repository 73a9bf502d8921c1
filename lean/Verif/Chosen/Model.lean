import Verif.Dict
/-
Model of how a gateway gets its authenticator and its backend from its configuration:
dask-gateway-server/dask_gateway_server/app.py:93-123, 152-176 and traitlets.py:75-87.

The reading of configuration is that of traitlets, which is not part of the repository; what it does is modelled from memory:
`load_config_file` takes the extension off the name it is given and reads the files with `.py` and `.json` instead, those
that are there; the values of the command line come last; names that no option has are reported and ignored. Python's
import system is a parameter.
-/
namespace Verif.Chosen

/-- An object in Python (traitlets.py:81, 87): a class, with whether it is a subclass of `Authenticator` and of `Backend`,
or something else, such as a module. -/
inductive Obj where
  | cls (name : Str) (authenticator backend : Bool)
  | other
  deriving DecidableEq

/-- The value of an option (traitlets.py:75-87). -/
inductive Val where
  | text (s : Str)
  | obj (o : Obj)
  deriving DecidableEq

/-- The values for the section `DaskGateway` (app.py:66, 93-123). -/
abbrev Conf := List (Str × Val)

/-- What comes of the reading of a configuration file (app.py:104, 170). -/
inductive Read where
  | raises
  | gives (c : Conf)
  deriving DecidableEq

/-- The process: its files, and what can be imported (app.py:170, traitlets.py:81). -/
structure World where
  files : Str → Option Read
  modules : Str → Bool
  attr : Str → Str → Option Obj

/-- Why the gateway does not start (app.py:104, 152; traitlets.py:82-87). -/
inductive Err where
  /-- the configuration file raises -/
  | file
  /-- `TraitError`: cannot be imported -/
  | missing
  /-- `TraitError`: not of the class that is wanted -/
  | wrong
  deriving DecidableEq

/-- The command line (app.py:93-101, 154). -/
structure Argv where
  /-- `-f`, `--config` -/
  configFile : Option Str
  conf : Conf

/-- The part of `os.path.splitext` (app.py:170, within traitlets) that is kept: all in front of the last dot of the last
component, if there is something other than dots in front of it there. -/
def root (path : Str) : Str :=
  let r := path.reverse
  let ext := r.takeWhile (fun c => c != '.' && c != '/')
  match r.drop ext.length with
  | '.' :: rest =>
    if (rest.takeWhile (fun c => c != '/')).any (fun c => c != '.') then rest.reverse else path
  | _ => path

/-- `_resolve_string` (traitlets.py:81): what a dotted name stands for; a name without dots is a module. -/
def importItem (w : World) (s : Str) : Except Err Obj :=
  let cls := (s.reverse.takeWhile (fun c => c != '.')).reverse
  if s.contains '.' then
    let package := ((s.reverse.dropWhile (fun c => c != '.')).drop 1).reverse
    if w.modules package then
      match w.attr package cls with
      | none => .error .missing
      | some o => .ok o
    else .error .missing
  else if w.modules s then .ok .other
  else .error .missing

/-- app.py:108 `klass` -/
def isAuthenticator : Obj → Bool
  | .cls _ a _ => a
  | .other => false

/-- app.py:114 `klass` -/
def isBackend : Obj → Bool
  | .cls _ _ b => b
  | .other => false

/-- traitlets.py:75-87 `Type.validate`. -/
def validate (w : World) (klass : Obj → Bool) (v : Val) : Except Err Obj :=
  let r := match v with
    | .text s => importItem w s
    | .obj o => .ok o
  match r with
  | .error e => .error e
  | .ok o => if klass o then .ok o else .error .wrong

/-- What a file that is not there adds (app.py:170): nothing. -/
def content : Option Read → Except Err Conf
  | none => .ok []
  | some .raises => .error .file
  | some (.gives c) => .ok c

/-- app.py:170 `load_config_file`: the values of both files and of the command line, the later ones win. -/
def loadConfig (w : World) (argv : Argv) : Except Err Conf :=
  let base := root (argv.configFile.getD "dask_gateway_config.py".toList)
  match content (w.files (base ++ ".py".toList)) with
  | .error e => .error e
  | .ok py =>
    match content (w.files (base ++ ".json".toList)) with
    | .error e => .error e
    | .ok json => .ok (Dict.update (Dict.update (Dict.ofList py) json) argv.conf)

/-- An option of a class (app.py:106-123, traitlets.py:75-87): its value, or the default. -/
def choose (w : World) (klass : Obj → Bool) (conf : Conf) (name default : Str) : Except Err Obj :=
  validate w klass ((lookup conf name).getD (.text default))

/-- app.py:152-176 `initialize`: the authenticator and the backend that are made. The values of the command line are checked
first, which makes a difference only for the error that is shown. -/
def startUp (w : World) (argv : Argv) : Except Err (Obj × Obj) :=
  match loadConfig w argv with
  | .error e => .error e
  | .ok conf =>
    match choose w isAuthenticator conf "authenticator_class".toList "dask_gateway_server.auth.SimpleAuthenticator".toList with
    | .error e => .error e
    | .ok a =>
      match choose w isBackend conf "backend_class".toList
          "dask_gateway_server.backends.local.UnsafeLocalBackend".toList with
      | .error e => .error e
      | .ok b => .ok (a, b)

end Verif.Chosen
