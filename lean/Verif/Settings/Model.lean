import Verif.Options.Model
import Verif.Addr.Model
/-
Model of the settings of a client: templates with environment variables, the options of clusters from the local
configuration, and the addresses: dask-gateway/dask_gateway/client.py:281-319, 492-538, 592-651 and
dask-gateway/dask_gateway/utils.py:5-8.
-/
namespace Verif.Settings

/-! ### Templates -/

/-- What `str.format` raises (utils.py:7): `KeyError`, `IndexError` (there are no positional arguments) or
`ValueError`. `fancy` stands for all that happens with fields that have an attribute, an index, a conversion or a
format; these are not modelled. -/
inductive FErr where
  | key
  | index
  | value
  | fancy
  deriving DecidableEq

/-- What a field of a template stands for (utils.py:7): no name and a number are positional. -/
def field (env : Str → Option Str) (name : Str) : Except FErr Str :=
  if name.all Char.isDigit then .error .index
  else match env name with
    | some v => .ok v
    | none => .error .key

/-- The characters in a field after which more than a name is meant (utils.py:7). -/
def fancyChars : List Char := ['.', '[', ':', '!']

/-- `x.format(**os.environ)` (utils.py:7), outside of a field (`none`) or within one, with its name so far. -/
def formatFrom (env : Str → Option Str) : Option Str → Str → Except FErr Str
  | none, [] => .ok []
  | none, c :: s =>
    if c = '{' then
      match s with
      | [] => .error .value
      | d :: t =>
        if d = '{' then (formatFrom env none t).map (fun r => '{' :: r)
        else formatFrom env (some []) (d :: t)
    else if c = '}' then
      match s with
      | [] => .error .value
      | d :: t => if d = '}' then (formatFrom env none t).map (fun r => '}' :: r) else .error .value
    else (formatFrom env none s).map (fun r => c :: r)
  | some _, [] => .error .value
  | some n, c :: s =>
    if c = '}' then
      match field env n with
      | .error e => .error e
      | .ok v => (formatFrom env none s).map (fun r => v ++ r)
    else if c = '{' then .error .value
    else if c ∈ fancyChars then .error .fancy
    else formatFrom env (some (n ++ [c])) s

/-- `x.format(**os.environ)` (utils.py:7). -/
def format (env : Str → Option Str) (s : Str) : Except FErr Str := formatFrom env none s

/-- utils.py:5-8 `format_template`. -/
def formatTemplate (env : Str → Option Str) : Json → Except FErr Json
  | .str s => (format env s).map .str
  | x => .ok x

/-! ### Options of clusters -/

/-- An exception (client.py:494, 501-502, 535). -/
inductive SErr where
  | template (e : FErr)
  | option (e : Options.Err)
  deriving DecidableEq

/-- The entries of client.py:494. -/
def formatAll (env : Str → Option Str) : List (Str × Json) → Except SErr (List (Str × Json))
  | [] => .ok []
  | (k, v) :: l =>
    match formatTemplate env v with
    | .error e => .error (.template e)
    | .ok w =>
      match formatAll env l with
      | .error e => .error e
      | .ok r => .ok ((k, w) :: r)

/-- client.py:492-494 `_config_cluster_options`. -/
def configOptions (env : Str → Option Str) (conf : List (Str × Json)) : Except SErr (List (Str × Json)) :=
  match formatAll env conf with
  | .error e => .error e
  | .ok l => .ok (Dict.ofList l)

/-- `options.update(...)` (client.py:502, of `MutableMapping`). -/
def updateAll : List (Str × Options.CField) → List (Str × Json) → Except SErr (List (Str × Options.CField))
  | o, [] => .ok o
  | o, (k, v) :: l =>
    match Options.setOption o k v with
    | .error e => .error (.option e)
    | .ok o' => updateAll o' l

/-- client.py:496-503 `_cluster_options`, from the server's answer. -/
def clusterOptions (env : Str → Option Str) (conf : List (Str × Json)) (spec : List Json) (local_ : Bool) :
    Except SErr (List (Str × Options.CField)) :=
  match Options.fromSpec spec with
  | .error e => .error (.option e)
  | .ok o =>
    if local_ then
      match configOptions env conf with
      | .error e => .error e
      | .ok c => updateAll o c
    else .ok o

/-- client.py:523-536 `_submit`: the options that are sent. -/
def submit (env : Str → Option Str) (conf : List (Str × Json)) (o : Option (List (Str × Options.CField)))
    (kwargs : List (Str × Json)) : Except SErr Json :=
  match o with
  | some o => .ok (Options.submitted o kwargs)
  | none =>
    match configOptions env conf with
    | .error e => .error e
    | .ok c => .ok (.obj (Dict.update c kwargs))

/-! ### Addresses -/

/-- A setting that may be a number (client.py:295, 306). -/
inductive Setting where
  | none
  | int (n : Nat)
  | str (s : Str)
  deriving DecidableEq

/-- utils.py:5-8 `format_template` on a setting. -/
def formatSetting (env : Str → Option Str) : Setting → Except FErr Setting
  | .str s => (format env s).map .str
  | x => .ok x

/-- The local configuration (client.py:280, 288, 295). -/
structure Conf where
  address : Option Str
  publicAddress : Option Str
  proxyAddress : Setting

/-- The addresses of a client (client.py:317-319). -/
structure Addrs where
  address : Str
  publicAddress : Str
  proxyAddress : Str
  deriving DecidableEq

/-- What the constructor of a client raises (client.py:280-316): `ValueError` if there is no address, the errors of
templates, and the errors of `urlparse`. -/
inductive AErr where
  | missing
  | template (e : FErr)
  | url
  deriving DecidableEq

/-- An argument, or else the setting (client.py:279-280, 287-288). -/
def argOr (env : Str → Option Str) (arg conf : Option Str) : Except AErr (Option Str) :=
  match arg with
  | some a => .ok (some a)
  | none =>
    match conf with
    | none => .ok none
    | some c =>
      match format env c with
      | .error e => .error (.template e)
      | .ok v => .ok (some v)

/-- An argument, or else the setting (client.py:294-295). -/
def proxyOr (env : Str → Option Str) (arg conf : Setting) : Except AErr Setting :=
  match arg with
  | .none =>
    match formatSetting env conf with
    | .error e => .error (.template e)
    | .ok v => .ok v
  | a => .ok a

/-- The kind of a setting (client.py:296-311). -/
def Setting.arg : Setting → Addr.ProxyArg
  | .none => .none
  | .int n => .port n
  | .str s => .addr s

/-- client.py:291-292 a slash at the end is cut off, or the address is taken. -/
def publicOf (address : Str) : Option Str → Str
  | none => address
  | some p => Addr.rstrip p

/-- client.py:270-319 the addresses that `Gateway(...)` has. -/
def gateway (env : Str → Option Str) (conf : Conf) (address publicAddress : Option Str) (proxy : Setting) :
    Except AErr Addrs :=
  match argOr env address conf.address with
  | .error e => .error e
  | .ok none => .error .missing
  | .ok (some a) =>
    match argOr env publicAddress conf.publicAddress with
    | .error e => .error e
    | .ok pub =>
      match proxyOr env proxy conf.proxyAddress with
      | .error e => .error e
      | .ok p =>
        match Addr.proxyAddress a p.arg with
        | none => .error .url
        | some q =>
          .ok { address := Addr.rstrip a, publicAddress := publicOf (Addr.rstrip a) pub, proxyAddress := q }

/-- client.py:592-651, 870-899 the addresses of the client within a cluster that `connect` or `new_cluster` makes:
those of the client are given as arguments. -/
def derived (env : Str → Option Str) (conf : Conf) (g : Addrs) : Except AErr Addrs :=
  gateway env conf (some g.address) (some g.publicAddress) (.str g.proxyAddress)

end Verif.Settings
