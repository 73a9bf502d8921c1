import Verif.Settings.Model
/-
Model of the HTTP proxy that a client uses: dask-gateway/dask_gateway/client.py:227-241, 314-315, 385-404, with the parts of
`yarl` and of `aiohttp.helpers` that they use.
-/
namespace Verif.Settings

/-! ### URLs with credentials (client.py:238-239) -/

/-- A hexadecimal digit (client.py:238, within `yarl`). -/
def hexDigit (c : Char) : Option Nat :=
  if 48 ≤ c.toNat ∧ c.toNat ≤ 57 then some (c.toNat - 48)
  else if 65 ≤ c.toNat ∧ c.toNat ≤ 70 then some (c.toNat - 55)
  else if 97 ≤ c.toNat ∧ c.toNat ≤ 102 then some (c.toNat - 87)
  else none

/-- The decoding of `yarl` (client.py:238): `%` and two digits are a character, any other `%` stands for itself. Only
characters below 128 are modelled as encoded. -/
def decode : Str → Str
  | [] => []
  | [c] => [c]
  | [c, d] => [c, d]
  | c :: a :: b :: s =>
    if c = '%' then
      match hexDigit a, hexDigit b with
      | some x, some y => Char.ofNat (16 * x + y) :: decode s
      | _, _ => c :: decode (a :: b :: s)
    else c :: decode (a :: b :: s)

/-- A URL as `yarl` has it (client.py:238): `host` with the port, `rest` is what follows. -/
structure ProxyUrl where
  scheme : Str
  user : Option Str
  password : Option Str
  host : Str
  rest : Str
  deriving DecidableEq

/-- `s.rpartition(c)[0]`, within `yarl` (client.py:238). -/
def beforeLast (c : Char) (s : Str) : Str := ((s.reverse.dropWhile (fun x => x != c)).drop 1).reverse

/-- `url.user` (client.py:239) of the part before the last `@`. -/
def userOf (info : Str) : Option Str :=
  if Addr.before ':' info = [] then none else some (decode (Addr.before ':' info))

/-- `url.password` (client.py:239) of the part before the last `@`. -/
def passwordOf (info : Str) : Option Str :=
  if info.contains ':' then some (decode (Addr.after ':' info)) else none

/-- `yarl.URL(text)` (client.py:238). -/
def parseProxy (text : Str) : ProxyUrl :=
  let p := Addr.splitScheme (Addr.clean text)
  let netloc := Addr.netlocOf p.2
  if netloc.contains '@' then
    { scheme := p.1, user := userOf (beforeLast '@' netloc), password := passwordOf (beforeLast '@' netloc),
      host := Addr.afterLast '@' netloc, rest := Addr.restOf p.2 }
  else { scheme := p.1, user := none, password := none, host := netloc, rest := Addr.restOf p.2 }

/-- What client.py:227-241 raises: the errors of templates, and the `ValueError` for a colon in the name of a user. -/
inductive KErr where
  | template (e : FErr)
  | login
  deriving DecidableEq

/-- Where a request is sent, and the credentials for the HTTP proxy (client.py:241). -/
abbrev Via := Option (ProxyUrl × Option (Str × Str))

/-- Whether two ways are the same can be computed (client.py:241). -/
instance decVia : DecidableEq Via := inferInstance

/-- The same with errors (client.py:241). -/
instance decWay : DecidableEq (Except KErr Via) := inferInstance

/-- `aiohttp.helpers.strip_auth_from_url` (client.py:239). -/
def stripAuth (u : ProxyUrl) : Except KErr (ProxyUrl × Option (Str × Str)) :=
  match u.user, u.password with
  | none, none => .ok (u, none)
  | user, password =>
    if (user.getD []).contains ':' then .error .login
    else .ok ({ u with user := none, password := none }, some (user.getD [], password.getD []))

/-! ### The environment (client.py:232) -/

/-- What the environment says: HTTP proxies by scheme, credentials in `.netrc` by host, and the hosts that are to be asked
directly (`NO_PROXY`). -/
structure HttpEnv where
  proxies : List (Str × Str)
  netrc : Str → Option (Str × Str)
  bypass : Str → Bool

/-- `aiohttp.helpers.proxies_from_env` (client.py:232). Proxies that are contacted over TLS are ignored. -/
def proxiesFromEnv (netrc : Str → Option (Str × Str)) :
    List (Str × Str) → Except KErr (List (Str × (ProxyUrl × Option (Str × Str))))
  | [] => .ok []
  | (scheme, text) :: l =>
    match stripAuth (parseProxy text) with
    | .error e => .error e
    | .ok (u, auth) =>
      match proxiesFromEnv netrc l with
      | .error e => .error e
      | .ok r =>
        if u.scheme = "https".toList ∨ u.scheme = "wss".toList then .ok r
        else .ok ((scheme, (u, match auth with | some a => some a | none => netrc u.host)) :: r)

/-! ### The client -/

/-- client.py:227-241 `_get_default_request_kwargs`. -/
def requestKwargs (env : Str → Option Str) (http : HttpEnv) (conf : Json) (scheme : Str) : Except KErr Via :=
  match formatTemplate env conf with
  | .error e => .error (.template e)
  | .ok (.bool true) =>
    match proxiesFromEnv http.netrc http.proxies with
    | .error e => .error e
    | .ok l => .ok (l.lookup scheme)
  | .ok (.str s) =>
    match stripAuth (parseProxy s) with
    | .error e => .error e
    | .ok p => .ok (some p)
  | .ok _ => .ok none

/-- client.py:314-315 within the constructor; `none` if the address is no URL. -/
def clientVia (env : Str → Option Str) (http : HttpEnv) (conf : Json) (address : Str) : Option (Except KErr Via) :=
  match Addr.urlparse address with
  | none => none
  | some u => some (requestKwargs env http conf u.scheme)

/-- client.py:395-404: the requests of one call of the client, by the way they take; the second if the answer is 401. -/
def sends (via : Via) (status : Nat) : List Via := if status = 401 then [via, via] else [via]

end Verif.Settings
