import Verif.Json
import Verif.Api.Model
import Verif.Env.Model
import Verif.Addr.Model
import Verif.Forward.Model
import Verif.Batch.Model
/-
Model of how the parts of the gateway get to know each other when they start:
- the settings of the proxy, `dask-gateway-server/dask_gateway_server/proxy/core.py` (40-219, and the separate proxy
  444-454), `utils.py` `normalize_address` (132-143), the gateway's address (`app.py` 122-146), and the default of the
  URL of the API (`backends/db_base.py` 815-820);
- the start of the proxy process, `dask-gateway-server/dask-gateway-proxy/cmd/dask-gateway-proxy/main.go` (126-156,
  548-593), with Go's `flag` package, which is not in the repository and is modelled after its source;
- the start of a scheduler, `dask-gateway/dask_gateway/scheduler_preload.py` (354-400), and which handler of
  `routes.py` (163-177, 268-278) its requests get to.
-/
namespace Verif.Boot

/-! ### Addresses -/

/-- The digits of `int(s)` (utils.py:135), which may be grouped by single underscores; `after`: a digit is before. Only
ASCII digits are covered. -/
def digits (n : Nat) (after : Bool) : Str → Option Nat
  | [] => if after then some n else none
  | c :: s =>
    if c = '_' then (if after then digits n false s else none)
    else if c.isDigit then digits (10 * n + (c.toNat - 48)) true s
    else none

/-- `int(s)` (utils.py:135) -/
def pyInt (s : Str) : Option Int :=
  match Batch.strip s with
  | '-' :: s => (digits 0 false s).map (fun n : Nat => -(n : Int))
  | '+' :: s => (digits 0 false s).map (fun n : Nat => (n : Int))
  | s => (digits 0 false s).map (fun n : Nat => (n : Int))

/-- The text of a number (utils.py:143). -/
def showInt (n : Int) : Str :=
  if n < 0 then '-' :: Nat.toDigits 10 n.natAbs else Nat.toDigits 10 n.natAbs

/-- utils.py:132-143 `normalize_address`; `hostname` is the name of the machine, `fresh` the result of `random_port`.
`none` is the `ValueError`. -/
def normalizeAddress (hostname : Str) (fresh : Nat) (resolve : Bool) (address : Str) : Option Str :=
  match Api.splitAll ':' address with
  | [host, p] =>
    match pyInt p with
    | none => none
    | some n =>
      let host := if resolve = true ∧ (host = [] ∨ host = "0.0.0.0".toList) then hostname else host
      let n : Int := if n = 0 then fresh else n
      some (host ++ ':' :: showInt n)
  | _ => none

/-! ### Settings -/

/-- What the configuration says about the proxy and the address of the gateway; `none`: nothing (core.py:34-170,
app.py:124-146). -/
structure Raw where
  gateway : Option Str
  address : Option Str
  tcpAddress : Option Str
  pathPrefix : Option Str
  gatewayUrl : Option Str
  apiToken : Option Str
  tlsKey : Str
  tlsCert : Str
  logLevel : Option Str

/-- What a process finds where it runs: the name of the machine, the variable `DASK_GATEWAY_PROXY_TOKEN` (empty if not
set), and what it draws at random: ports (utils.py:138) and a token (core.py:135). -/
structure Machine where
  hostname : Str
  envToken : Str
  port : Nat → Nat
  uuid : Str

/-- The settings of the proxy (core.py:34-190). -/
structure Settings where
  /-- The address of the gateway. -/
  gateway : Str
  address : Str
  tcpAddress : Str
  pathPrefix : Str
  gatewayUrl : Str
  apiToken : Str
  tlsKey : Str
  tlsCert : Str
  logLevel : Str
deriving DecidableEq

/-- core.py:92-102 `_validate_prefix` -/
def validPrefix (p : Str) : Option Str :=
  if p = [] then some p
  else if p.head? ≠ some '/' then none
  else some (Addr.rstrip p)

/-- core.py:34-39 the values of `log_level` -/
def levels : List Str := ["error", "warn", "info", "debug"].map String.toList

/-- core.py:34-39 `CaselessStrEnum`: the value that is equal up to case. -/
def validLevel (l : Str) : Option Str := levels.find? (fun v => v = l.map Addr.lowerC)

/-- app.py:141-146 the address of the gateway -/
def gatewayAddress (m : Machine) (r : Raw) : Option Str :=
  normalizeAddress m.hostname (m.port 0) false (r.gateway.getD "127.0.0.1:0".toList)

/-- core.py:41-42, 78-80 the address for HTTP -/
def httpAddress (m : Machine) (r : Raw) : Option Str :=
  match r.address with
  | none => some ":8000".toList
  | some a => normalizeAddress m.hostname (m.port 1) false a

/-- core.py:74-80 the address for schedulers -/
def tcpAddress (m : Machine) (r : Raw) (address : Str) : Option Str :=
  match r.tcpAddress with
  | none => some address
  | some a => normalizeAddress m.hostname (m.port 2) false a

/-- core.py:109-112 the URL of the gateway -/
def gatewayUrl (m : Machine) (r : Raw) (gateway : Str) : Option Str :=
  match r.gatewayUrl with
  | some u => some u
  | none => (normalizeAddress m.hostname (m.port 3) true gateway).map ("http://".toList ++ ·)

/-- core.py:130-136 the token -/
def apiToken (m : Machine) (r : Raw) : Str :=
  match r.apiToken with
  | some t => t
  | none => if m.envToken = [] then m.uuid else m.envToken

/-- core.py:34-190: the settings that come of a configuration; `none` if one of them is refused. -/
def settle (m : Machine) (r : Raw) : Option Settings :=
  match gatewayAddress m r, httpAddress m r, validPrefix (r.pathPrefix.getD []), validLevel (r.logLevel.getD "warn".toList) with
  | some gw, some address, some pre, some level =>
    match tcpAddress m r address, gatewayUrl m r gw with
    | some tcp, some url =>
      some { gateway := gw, address := address, tcpAddress := tcp, pathPrefix := pre, gatewayUrl := url,
             apiToken := apiToken m r, tlsKey := r.tlsKey, tlsCert := r.tlsCert, logLevel := level }
    | _, _ => none
  | _, _, _, _ => none

/-- core.py:196-214 `get_start_command`; `none` is the `ValueError`. -/
def startCommand (exe : Str) (s : Settings) (child : Bool) : Option (List Str) :=
  if (s.tlsCert = []) ≠ (s.tlsKey = []) then none
  else
    some ([exe, "-address".toList, s.address, "-tcp-address".toList, s.tcpAddress, "-api-url".toList,
        s.gatewayUrl ++ "/api/v1/routes".toList, "-log-level".toList, s.logLevel] ++
      (if child then ["-is-child-process".toList] else []) ++
      (if s.tlsCert = [] then [] else ["-tls-cert".toList, s.tlsCert, "-tls-key".toList, s.tlsKey]))

/-! ### The proxy process -/

/-- The variables of main.go:549-557. -/
structure Flags where
  address : Str
  tcpAddress : Str
  apiUrl : Str
  logLevel : Str
  child : Bool
  tlsCert : Str
  tlsKey : Str
deriving DecidableEq

/-- main.go:560-568 the defaults -/
def Flags.init : Flags :=
  { address := ":8000".toList, tcpAddress := [], apiUrl := [], logLevel := "INFO".toList, child := false, tlsCert := [],
    tlsKey := [] }

/-- main.go:560-568 the flags with a value: `none` if there is no such flag. -/
def Flags.set (f : Flags) (name value : Str) : Option Flags :=
  if name = "address".toList then some { f with address := value }
  else if name = "tcp-address".toList then some { f with tcpAddress := value }
  else if name = "api-url".toList then some { f with apiUrl := value }
  else if name = "log-level".toList then some { f with logLevel := value }
  else if name = "tls-cert".toList then some { f with tlsCert := value }
  else if name = "tls-key".toList then some { f with tlsKey := value }
  else none

/-- `strconv.ParseBool`, for a flag without need of a value (main.go:565-566). -/
def parseBool (s : Str) : Option Bool :=
  if s ∈ ["1", "t", "T", "true", "TRUE", "True"].map String.toList then some true
  else if s ∈ ["0", "f", "F", "false", "FALSE", "False"].map String.toList then some false
  else none

/-- The name of a flag without its dashes, if the word is a flag (`flag.parseOne`, used by main.go:570). -/
inductive Word where
  /-- Not a flag, or `--`: the flags end. -/
  | rest
  | bad
  | flag (name : Str) (value : Option Str)
deriving DecidableEq

/-- The part of `flag.parseOne` that divides the name from the value (main.go:570): at the first `=` that is not at the start. -/
def cut (name : Str) : Word :=
  match name with
  | [] => .bad
  | c :: s =>
    if c = '-' ∨ c = '=' then .bad
    else if s.contains '=' then .flag (c :: s.takeWhile (· != '=')) (some ((s.dropWhile (· != '=')).drop 1))
    else .flag (c :: s) none

/-- `flag.parseOne` on one word (main.go:570). -/
def word (s : Str) : Word :=
  match s with
  | '-' :: '-' :: [] => .rest
  | '-' :: '-' :: name => cut name
  | '-' :: c :: name => cut (c :: name)
  | _ => .rest

/-- `flag.Parse` (main.go:570): `none` if the process exits with an error. -/
def parseFlags (f : Flags) : List Str → Option Flags
  | [] => some f
  | [w] =>
    match word w with
    | .rest => some f
    | .bad => none
    | .flag name value =>
      if name = "is-child-process".toList then (parseBool (value.getD "true".toList)).map (fun b => { f with child := b })
      else
        match value with
        | some v => f.set name v
        | none => none
  | w :: v :: l =>
    match word w with
    | .rest => some f
    | .bad => none
    | .flag name value =>
      if name = "is-child-process".toList then
        match parseBool (value.getD "true".toList) with
        | none => none
        | some b => parseFlags { f with child := b } (v :: l)
      else
        match value with
        | some x =>
          match f.set name x with
          | none => none
          | some f => parseFlags f (v :: l)
        | none =>
          match f.set name v with
          | none => none
          | some f => parseFlags f l

/-- logging.go:24-36 `ParseLevel`: the texts it accepts. -/
def goLevels : List Str := ["ERROR", "error", "WARN", "warn", "INFO", "info", "DEBUG", "debug"].map String.toList

/-- What becomes of the process up to main.go:592. -/
inductive Outcome where
  /-- The flags are refused (570). -/
  | exit
  | panic
  /-- `proxy.run` (592), with the token. -/
  | run (f : Flags) (token : Str)
deriving DecidableEq

/-- main.go:548-593 `main`; `parses`: the URLs that `url.Parse` accepts. -/
def goMain (parses : Str → Bool) (args : List Str) (token : Str) : Outcome :=
  match parseFlags .init args with
  | none => .exit
  | some f =>
    if token = [] then .panic                                       -- 572-575
    else if f.logLevel ∉ goLevels then .panic                       -- 577
    else if (f.tlsCert = []) ≠ (f.tlsKey = []) then .panic          -- 579-581
    else if f.apiUrl = [] then .panic                               -- 583-585
    else if parses f.apiUrl = false then .panic                     -- 586-588
    else .run f token

/-- An address the process listens at (main.go:135-153). -/
structure Listener where
  address : Str
  /-- Connections that start with a TLS greeting for a cluster are served. -/
  tcp : Bool
  http : Bool
deriving DecidableEq

/-- main.go:131-153: the addresses; `free held a`: the operating system allows to listen at `a` if the process already
listens at `held`. `none`: the process exits. -/
def listen (free : List Str → Str → Bool) (f : Flags) : Option (List Listener) :=
  let tcp := if f.tcpAddress = [] then f.address else f.tcpAddress
  if free [] tcp = false then none
  else if f.address = tcp then some [{ address := tcp, tcp := true, http := true }]
  else if free [tcp] f.address = false then none
  else some [{ address := tcp, tcp := true, http := false }, { address := f.address, tcp := false, http := true }]

/-! ### The scheduler -/

/-- db_base.py:815-820 the default of `api_url` -/
def apiUrl (m : Machine) (s : Settings) : Option Str :=
  (normalizeAddress m.hostname (m.port 4) true s.address).map fun address =>
    (if s.tlsCert = [] then "http".toList else "https".toList) ++ "://".toList ++ address ++ s.pathPrefix ++ "/api".toList

/-- scheduler_preload.py:354-358 `GatewayClient` -/
structure Client where
  cluster : Str
  token : Str
  url : Str
deriving DecidableEq

/-- scheduler_preload.py:382-387 `getenv`: `none` if the process exits. -/
def getenv (env : List (Str × Str)) (key : Str) : Option Str :=
  match lookup env key with
  | none => none
  | some [] => none
  | some v => some v

/-- scheduler_preload.py:390-397 `make_gateway_client` without arguments; `files`: what can be read from a path. `none` if
the process exits (384, 433). -/
def makeClient (env : List (Str × Str)) (files : Str → Option Str) : Option Client :=
  match getenv env "DASK_GATEWAY_CLUSTER_NAME".toList, getenv env "DASK_GATEWAY_API_URL".toList,
      getenv env "DASK_GATEWAY_API_TOKEN".toList with
  | some name, some url, some token =>
    if token.contains '/' then (files token).map (fun t => { cluster := name, token := t, url := url })
    else some { cluster := name, token := token, url := url }
  | _, _, _ => none

/-- A request as it is sent (scheduler_preload.py:360-379). -/
structure Sent where
  method : Str
  url : Str
  authorization : Str
deriving DecidableEq

/-- scheduler_preload.py:360-371 `heartbeat` -/
def Client.heartbeat (c : Client) : Sent :=
  { method := "POST".toList,
    url := c.url ++ "/v1/clusters/".toList ++ c.cluster ++ "/heartbeat".toList,
    authorization := "token ".toList ++ c.token }

/-- scheduler_preload.py:373-379 `shutdown` -/
def Client.shutdown (c : Client) : Sent :=
  { method := "DELETE".toList,
    url := c.url ++ "/v1/clusters/".toList ++ c.cluster,
    authorization := "token ".toList ++ c.token }

/-- The target of the request line: what follows host and port in the URL (scheduler_preload.py:362-371, sent by
tornado). -/
def Sent.target (s : Sent) : Option Str := (Addr.urlparse s.url).map Addr.Url.path

/-- Which handler of routes.py:163-165, 268-269 gets a request; only these two routes. A name is matched by `[^{}/]+`. -/
def route (method path : Str) : Option Api.Route :=
  match Api.splitAll '/' path with
  | [a, b, c, d, name] =>
    if a = [] ∧ b = "api".toList ∧ c = "v1".toList ∧ d = "clusters".toList ∧ name ≠ [] ∧ '{' ∉ name ∧ '}' ∉ name ∧
        method = "DELETE".toList then some (.delete name)
    else none
  | [a, b, c, d, name, e] =>
    if a = [] ∧ b = "api".toList ∧ c = "v1".toList ∧ d = "clusters".toList ∧ name ≠ [] ∧ '{' ∉ name ∧ '}' ∉ name ∧
        e = "heartbeat".toList ∧ method = "POST".toList then some (.heartbeat name)
    else none
  | _ => none

/-- What the proxy makes of a request (main.go:388-415, 436-450): the request line and the host it is sent on to. -/
def proxied (router : Router.Router Forward.Url) (target : Str) : Option (Str × Str) :=
  match Forward.parseTarget target with
  | none => none
  | some u =>
    match Forward.serveHTTP router u with
    | .notFound => none
    | .forward v => some (v.host, Forward.requestURI v)

/-- A request of a scheduler on its way: through the proxy (main.go:388-415) to the gateway, which is at the address
`gw`, and there to a handler (routes.py:24-49). `none`: it does not get to one of the two handlers. -/
def delivered (router : Router.Router Forward.Url) (gw : Str) (env : Api.Env) (clusters : List Api.Cluster) (sent : Sent)
    (body : Option Json) : Option Api.Response :=
  match sent.target with
  | none => none
  | some target =>
    match proxied router target with
    | none => none
    | some (host, uri) =>
      if host ≠ gw then none
      else
        (route sent.method uri).map fun r =>
          Api.handle env clusters { route := r, header := some sent.authorization, body := body }

end Verif.Boot
