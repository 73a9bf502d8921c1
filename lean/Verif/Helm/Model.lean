import Verif.Dict
import Verif.Kube.Objects
/-
Model of the Helm chart: what its templates make of the values of a release, and what the configuration file that they write
does when the gateway reads it. `H` stands for `resources/helm/dask-gateway/templates`.

The functions of Helm's templates (`trunc`, `trimSuffix`, `contains`, `quote`, `nindent`, `omit`, `pick`, `set`), Python's string
literals and the rules of Traefik are modelled after their documentation. Names are ASCII, so that `trunc` cuts characters.
-/
namespace Verif.Helm

/-! ### Names -/

/-- `| trunc 63 | trimSuffix "-"` (H/_helpers.tpl:6, 16, 20, 22, 60, 67, 74) -/
def name63 (s : Str) : Str :=
  let t := s.take 63
  if t.getLast? = some '-' then t.dropLast else t

/-- `contains` of Helm (H/_helpers.tpl:19): whether the first string occurs in the second. -/
def contains (sub : Str) : Str → Bool
  | [] => sub.isEmpty
  | c :: s => sub.isPrefixOf (c :: s) || contains sub s

/-- A release of the chart (H/_helpers.tpl:6-22): its name, its namespace and the values for names. -/
structure Release where
  name : Str
  ns : Str
  nameOverride : Str
  fullnameOverride : Str
  deriving DecidableEq

/-- The name of the chart (resources/helm/dask-gateway/Chart.yaml) -/
def chartName : Str := "dask-gateway".toList

/-- H/_helpers.tpl:18 `default .Chart.Name .Values.nameOverride` -/
def Release.base (r : Release) : Str := if r.nameOverride = [] then chartName else r.nameOverride

/-- H/_helpers.tpl:14-25 `dask-gateway.fullname` -/
def Release.fullname (r : Release) : Str :=
  if r.fullnameOverride ≠ [] then name63 r.fullnameOverride
  else if contains r.base r.name then name63 r.name
  else name63 (r.name ++ '-' :: r.base)

/-- H/_helpers.tpl:59-61 `dask-gateway.apiName` -/
def Release.apiName (r : Release) : Str := name63 ("api-".toList ++ r.fullname)

/-- H/_helpers.tpl:73-75 `dask-gateway.controllerName` -/
def Release.controllerName (r : Release) : Str := name63 ("controller-".toList ++ r.fullname)

/-- H/gateway/middleware.yaml:4: the name of the middleware that strips the prefix of clusters. -/
def Release.clustersPrefixName (r : Release) : Str := name63 ("clusters-prefix-".toList ++ r.fullname)

/-- H/gateway/middleware.yaml:16: the name of the one that strips the prefix of the API. -/
def Release.apiPrefixName (r : Release) : Str := name63 ("api-prefix-".toList ++ r.fullname)

/-- What the gateway and the controller are told about their release (H/gateway/configmap.yaml:41, 45, H/controller/configmap.yaml:12-18). -/
structure Wiring where
  apiUrl : Str
  instanceName : Str
  middlewares : List (Str × Str)
  deriving DecidableEq

/-- H/gateway/configmap.yaml:41, 45: the gateway's part. -/
def Release.gatewayWiring (r : Release) : Wiring where
  apiUrl := "http://".toList ++ r.apiName ++ '.' :: r.ns ++ ":8000/api".toList
  instanceName := r.fullname
  middlewares := []

/-- H/controller/configmap.yaml:12-18: the controller's part. -/
def Release.controllerWiring (r : Release) : Wiring where
  apiUrl := "http://".toList ++ r.apiName ++ '.' :: r.ns ++ ":8000/api".toList
  instanceName := r.fullname
  middlewares := [(r.clustersPrefixName, r.ns)]

/-- backends/kubernetes/backend.py:340-342: which clusters, of all namespaces, a gateway and a controller take for theirs. -/
def Wiring.selector (w : Wiring) : Str := "gateway.dask.org/instance=".toList ++ w.instanceName

/-! ### Values in the configuration file -/

/-- A digit of a hexadecimal number (`%q` of Go, H/gateway/configmap.yaml:26). -/
def hexDigit (n : Nat) : Char := if n < 10 then Char.ofNat (48 + n) else Char.ofNat (87 + n)

/-- A number with `k` hexadecimal digits (`%q` of Go, H/gateway/configmap.yaml:26). -/
def hex : Nat → Nat → Str
  | 0, _ => []
  | k + 1, n => hex k (n / 16) ++ [hexDigit (n % 16)]

/-- One character in `quote` (`%q` of Go, H/gateway/configmap.yaml:26). `print` are the characters that count as printable. -/
def quoteChar (print : Char → Bool) (c : Char) : Str :=
  if c = '"' ∨ c = '\\' then ['\\', c]
  else if print c then [c]
  else if c.toNat = 7 then ['\\', 'a']
  else if c.toNat = 8 then ['\\', 'b']
  else if c.toNat = 12 then ['\\', 'f']
  else if c.toNat = 10 then ['\\', 'n']
  else if c.toNat = 13 then ['\\', 'r']
  else if c.toNat = 9 then ['\\', 't']
  else if c.toNat = 11 then ['\\', 'v']
  else if c.toNat < 32 ∨ c.toNat = 127 then '\\' :: 'x' :: hex 2 c.toNat
  else if c.toNat < 65536 then '\\' :: 'u' :: hex 4 c.toNat
  else '\\' :: 'U' :: hex 8 c.toNat

/-- `quote` of Helm (H/gateway/configmap.yaml:26) -/
def quote (print : Char → Bool) (s : Str) : Str := '"' :: (s.flatMap (quoteChar print) ++ ['"'])

/-- The value of a hexadecimal digit in a Python literal (H/gateway/configmap.yaml:26). -/
def hexVal (c : Char) : Option Nat :=
  if 48 ≤ c.toNat ∧ c.toNat ≤ 57 then some (c.toNat - 48)
  else if 97 ≤ c.toNat ∧ c.toNat ≤ 102 then some (c.toNat - 87)
  else if 65 ≤ c.toNat ∧ c.toNat ≤ 70 then some (c.toNat - 55)
  else none

/-- `k` hexadecimal digits in a Python literal, and what follows (H/gateway/configmap.yaml:26). -/
def readHex : Nat → Nat → Str → Option (Nat × Str)
  | 0, n, s => some (n, s)
  | _ + 1, _, [] => none
  | k + 1, n, c :: s => (hexVal c).bind fun d => readHex k (16 * n + d) s

/-- The characters with an escape of one letter in a Python literal (H/gateway/configmap.yaml:26). -/
def simpleEscape : Char → Option Char
  | '\\' => some '\\'
  | '"' => some '"'
  | '\'' => some '\''
  | 'a' => some (Char.ofNat 7)
  | 'b' => some (Char.ofNat 8)
  | 'f' => some (Char.ofNat 12)
  | 'n' => some (Char.ofNat 10)
  | 'r' => some (Char.ofNat 13)
  | 't' => some (Char.ofNat 9)
  | 'v' => some (Char.ofNat 11)
  | _ => none

/-- An escape in a Python literal: the character after the backslash gives what is read, and what follows
(H/gateway/configmap.yaml:26). Octal numbers and names of characters are left out (`none`). -/
def readEscape (e : Char) (s : Str) : Option (Char × Str) :=
  match simpleEscape e with
  | some c => some (c, s)
  | none =>
    if e = 'x' then (readHex 2 0 s).map (fun p => (Char.ofNat p.1, p.2))
    else if e = 'u' then (readHex 4 0 s).map (fun p => (Char.ofNat p.1, p.2))
    else if e = 'U' then (readHex 8 0 s).map (fun p => (Char.ofNat p.1, p.2))
    else none

/-- The inside of a Python literal in double quotes, up to the closing one, and what follows it (H/gateway/configmap.yaml:26);
`none` for a syntax error. The number bounds the steps. -/
def readInside : Nat → Str → Option (Str × Str)
  | 0, _ => none
  | _ + 1, [] => none
  | n + 1, c :: s =>
    if c = '"' then some ([], s)
    else if c = '\n' ∨ c = '\r' then none
    else if c = '\\' then
      match s with
      | [] => none
      | e :: s => (readEscape e s).bind fun p => (readInside n p.2).map fun q => (p.1 :: q.1, q.2)
    else (readInside n s).map fun q => (c :: q.1, q.2)

/-- A Python literal in double quotes (H/gateway/configmap.yaml:26). Three quotes begin another kind of literal. -/
def readLiteral (s : Str) : Option (Str × Str) :=
  match s with
  | '"' :: '"' :: '"' :: _ => none
  | '"' :: s => readInside (s.length + 1) s
  | _ => none

/-- H/gateway/configmap.yaml:26 `_PROPERTIES = json.loads({{ $values | toJson | quote }})`: the values that the configuration file
sees; `none` if it fails. `toJson` and `loads` are those of Go and Python. -/
def properties (toJson : Json → Str) (loads : Str → Option Json) (print : Char → Bool) (v : Json) : Option Json :=
  match readLiteral (quote print (toJson v) ++ [')']) with
  | some (t, [')']) => loads t
  | _ => none

/-- `omit` of Helm (H/gateway/configmap.yaml:13, 16) -/
def without (l : List (Str × Json)) (k : Str) : List (Str × Json) := l.filter (fun e => e.1 ≠ k)

/-- A field of a map in a template; `null` if it is not there (H/gateway/configmap.yaml:10-17). -/
def field (v : Json) (k : Str) : Json :=
  match v with
  | .obj l => (lookup l k).getD .null
  | _ => .null

/-- What counts as true in a template (H/gateway/configmap.yaml:14). -/
def truthy : Json → Bool
  | .null => false
  | .bool b => b
  | .num (.int i) => i ≠ 0
  | .num (.fin q) => q ≠ 0
  | .num _ => true
  | .str s => s ≠ []
  | .arr l => !l.isEmpty
  | .obj l => !l.isEmpty

/-- A map without one of its keys; what is no map stays (H/gateway/configmap.yaml:13, 16). -/
def omitIn (v : Json) (k : Str) : Json :=
  match v with
  | .obj l => .obj (without l k)
  | v => v

/-- A map with a key set; what is no map stays (H/gateway/configmap.yaml:13, 16, 17). -/
def setIn (v : Json) (k : Str) (x : Json) : Json :=
  match v with
  | .obj l => .obj (Dict.set l k x)
  | v => v

/-- H/gateway/configmap.yaml:12-18: the part of the values that is written to the configuration file. -/
def forwarded (values : Json) : Json :=
  let gateway := omitIn (field values "gateway".toList) "extraConfig".toList
  let auth := field gateway "auth".toList
  let hub := field auth "jupyterhub".toList
  let gateway :=
    if truthy (field hub "apiToken".toList) then
      setIn gateway "auth".toList (setIn auth "jupyterhub".toList (omitIn hub "apiToken".toList))
    else gateway
  .obj [("gateway".toList, gateway)]

/-- H/gateway/configmap.yaml:28-35 `get_property`, with the keys between the dots. -/
def getProperty : Json → List Str → Option Json
  | v, [] => some v
  | .obj l, k :: ks => (lookup l k).bind fun v => getProperty v ks
  | _, _ :: _ => none

/-- A property that is there and is not `None` (H/gateway/configmap.yaml:78-80). -/
def given (v : Json) (path : List Str) : Option Json :=
  match getProperty v path with
  | none => none
  | some .null => none
  | some x => some x

/-- H/gateway/configmap.yaml:57-77: the settings of clusters, and where they are in `gateway.backend`. -/
def fields : List (String × List String) :=
  [("scheduler_cores", ["scheduler", "cores", "request"]),
   ("scheduler_cores_limit", ["scheduler", "cores", "limit"]),
   ("scheduler_memory", ["scheduler", "memory", "request"]),
   ("scheduler_memory_limit", ["scheduler", "memory", "limit"]),
   ("scheduler_extra_container_config", ["scheduler", "extraContainerConfig"]),
   ("scheduler_extra_pod_config", ["scheduler", "extraPodConfig"]),
   ("worker_cores", ["worker", "cores", "request"]),
   ("worker_cores_limit", ["worker", "cores", "limit"]),
   ("worker_memory", ["worker", "memory", "request"]),
   ("worker_memory_limit", ["worker", "memory", "limit"]),
   ("worker_threads", ["worker", "threads"]),
   ("worker_extra_container_config", ["worker", "extraContainerConfig"]),
   ("worker_extra_pod_config", ["worker", "extraPodConfig"]),
   ("image_pull_policy", ["image", "pullPolicy"]),
   ("environment", ["environment"]),
   ("namespace", ["namespace"])]

/-- The settings of `c.KubeClusterConfig` (H/gateway/configmap.yaml:51-80). -/
abbrev Settings := List (Str × Json)

/-- H/gateway/configmap.yaml:76-80: one round of the loop over the fields. -/
def setField (v : Json) (s : Settings) (f : String × List String) : Settings :=
  match given v ("gateway".toList :: "backend".toList :: f.2.map String.toList) with
  | some x => Dict.set s f.1.toList x
  | none => s

/-- H/gateway/configmap.yaml:57-80: the loop over the fields. -/
def setFields (v : Json) (s : Settings) : Settings := fields.foldl (setField v) s

/-- What counts as true in Python (H/gateway/configmap.yaml:49, 52). -/
def pyTruthy : Option Json → Bool
  | none => false
  | some v => truthy v

/-- `"%s"` for strings (H/gateway/configmap.yaml:52). Others are left out. -/
def text : Json → Str
  | .str s => s
  | _ => []

/-- H/gateway/configmap.yaml:48-54: the image. -/
def setImage (v : Json) (s : Settings) : Settings :=
  let name := getProperty v ["gateway".toList, "backend".toList, "image".toList, "name".toList]
  if pyTruthy name then
    let tag := getProperty v ["gateway".toList, "backend".toList, "image".toList, "tag".toList]
    let image := if pyTruthy tag then .str (text (name.getD .null) ++ ':' :: text (tag.getD .null)) else name.getD .null
    Dict.set (Dict.set s "image".toList image) "image_pull_secrets".toList
      ((getProperty v ["gateway".toList, "backend".toList, "imagePullSecrets".toList]).getD .null)
  else s

/-- H/gateway/configmap.yaml:48-80: the settings of clusters. -/
def clusterSettings (v : Json) : Settings := setFields v (setImage v [])

/-! ### Authentication -/

/-- The text after the last dot (H/gateway/configmap.yaml:113 `rsplit('.', 1)[-1]`). -/
def lastPart (s : Str) : Str := (s.reverse.takeWhile (· ≠ '.')).reverse

/-- The authenticator that is configured: its class, and the settings of a class of that name
(H/gateway/configmap.yaml:82-117). -/
structure Authn where
  cls : Str
  name : Str
  settings : List (Str × Json)

/-- A setting that is made if its value is given (H/gateway/configmap.yaml:86-88, 91-93, 107-109). -/
def optSetting (k : String) (v : Option Json) : List (Str × Json) :=
  match v with
  | some x => [(k.toList, x)]
  | none => []

/-- H/gateway/configmap.yaml:96-106: the address of JupyterHub; `none` for the `ValueError`. -/
def hubUrl (env : Str → Option Str) (v : Json) : Option Json :=
  match given v ["gateway".toList, "auth".toList, "jupyterhub".toList, "apiUrl".toList] with
  | some u => some u
  | none =>
    match env "HUB_SERVICE_HOST".toList, env "HUB_SERVICE_PORT".toList with
    | some h, some p => some (.str ("http://".toList ++ h ++ ':' :: p ++ "/hub/api".toList))
    | _, _ => none

/-- H/gateway/configmap.yaml:110-115: an authenticator of the administrator; `none` if the file raises. -/
def customAuthn (v : Json) : Option Authn :=
  match getProperty v ["gateway".toList, "auth".toList, "custom".toList, "class".toList] with
  | some (.str cls) =>
    match getProperty v ["gateway".toList, "auth".toList, "custom".toList, "config".toList] with
    | some (.obj l) => some ⟨cls, lastPart cls, l⟩
    | some x => if truthy x then none else some ⟨cls, lastPart cls, []⟩
    | none => some ⟨cls, lastPart cls, []⟩
  | _ => none

/-- H/gateway/configmap.yaml:82-117: the authenticator; `none` if the file raises, then the gateway does not start. -/
def authn (env : Str → Option Str) (v : Json) : Option Authn :=
  match getProperty v ["gateway".toList, "auth".toList, "type".toList] with
  | some (.str t) =>
    if t = "simple".toList then
      some ⟨"dask_gateway_server.auth.SimpleAuthenticator".toList, "SimpleAuthenticator".toList,
        optSetting "password" (given v ["gateway".toList, "auth".toList, "simple".toList, "password".toList])⟩
    else if t = "kerberos".toList then
      some ⟨"dask_gateway_server.auth.KerberosAuthenticator".toList, "KerberosAuthenticator".toList,
        optSetting "keytab" (given v ["gateway".toList, "auth".toList, "kerberos".toList, "keytab".toList])⟩
    else if t = "jupyterhub".toList then
      (hubUrl env v).map fun u =>
        ⟨"dask_gateway_server.auth.JupyterHubAuthenticator".toList, "JupyterHubAuthenticator".toList,
          ("jupyterhub_api_url".toList, u) ::
            optSetting "jupyterhub_service_name"
              (given v ["gateway".toList, "auth".toList, "jupyterhub".toList, "jupyterhubServiceName".toList])⟩
    else if t = "custom".toList then customAuthn v
    else none
  | _ => none

/-! ### Extra configuration -/

/-- `indent` of Helm (H/gateway/configmap.yaml:122, 126): every line gets blanks in front of it. -/
def indent (pad : Str) (s : Str) : Str := pad ++ s.flatMap (fun c => if c = '\n' then '\n' :: pad else [c])

/-- The lines of a text (H/gateway/configmap.yaml:8: a block of YAML). -/
def lines : Str → List Str
  | [] => [[]]
  | c :: s =>
    if c = '\n' then [] :: lines s
    else
      match lines s with
      | [] => [[c]]
      | l :: ls => (c :: l) :: ls

/-- Lines put together again (H/gateway/configmap.yaml:8). -/
def unlines : List Str → Str
  | [] => []
  | [l] => l
  | l :: ls => l ++ '\n' :: unlines ls

/-- What a reader of YAML makes of an indented block (H/gateway/configmap.yaml:8): the blanks in front of each line are dropped. -/
def readBlock (k : Nat) (s : Str) : Str := unlines ((lines s).map (fun l => l.drop k))

/-- The values for extra configuration (H/gateway/configmap.yaml:119-129): none, a text or a map. -/
inductive Extra where
  | none
  | text (s : Str)
  | map (l : List (Str × Str))
  deriving DecidableEq

/-- The order of Go's strings (H/gateway/configmap.yaml:124 `sortAlpha`). -/
def leStr : Str → Str → Bool
  | [], _ => true
  | _ :: _, [] => false
  | a :: s, b :: t => if a.toNat < b.toNat then true else if a = b then leStr s t else false

/-- H/gateway/configmap.yaml:124 `sortAlpha` -/
def sortKeys (l : List (Str × Str)) : List (Str × Str) := l.mergeSort (fun a b => leStr a.1 b.1)

/-- H/gateway/configmap.yaml:119-129: the blocks of extra configuration, in order, as they are found in the file. -/
def Extra.blocks : Extra → List Str
  | .none => []
  | .text s => if s = [] then [] else [readBlock 4 (indent (List.replicate 4 ' ') s)]
  | .map l => (sortKeys l).map (fun e => readBlock 4 (indent (List.replicate 4 ' ') e.2))

/-- The file is run from top to bottom (H/gateway/configmap.yaml:19-129): the settings from the values, then the blocks. `exec` is what
a block does to the configuration, `none` if it raises. -/
def runExtra {C : Type} (exec : Str → C → Option C) (base : C) (e : Extra) : Option C :=
  e.blocks.foldl (fun c b => c.bind (exec b)) (some base)

/-! ### The token of JupyterHub -/

/-- The values for JupyterHub (H/gateway/secret.yaml, H/gateway/deployment.yaml:60-71). -/
structure Hub where
  authType : Str
  apiToken : Str
  fromName : Str
  fromKey : Str
  deriving DecidableEq

/-- The secrets of the namespace (H/gateway/secret.yaml): those of others, and that of the release, if there is one. -/
def Hub.secrets (h : Hub) (r : Release) (others : Str → Str → Option Str) : Str → Str → Option Str := fun n k =>
  if h.authType = "jupyterhub".toList ∧ h.apiToken ≠ [] ∧ n = r.apiName then
    if k = "jupyterhub-api-token".toList then some h.apiToken else none
  else others n k

/-- H/gateway/deployment.yaml:60-71: the variable `JUPYTERHUB_API_TOKEN` of the gateway. -/
def Hub.tokenEnv (h : Hub) (r : Release) (others : Str → Str → Option Str) : Option Str :=
  if h.authType = "jupyterhub".toList then
    if h.apiToken ≠ [] then h.secrets r others r.apiName "jupyterhub-api-token".toList
    else h.secrets r others h.fromName h.fromKey
  else none

/-! ### Paths -/

/-- `trimSuffix "/"` of Helm (H/gateway/middleware.yaml:10, 22) -/
def trimSlash (s : Str) : Str := if s.getLast? = some '/' then s.dropLast else s

/-- Python's `strip("/")` (backends/kubernetes/controller.py:268) -/
def stripSlashes (s : Str) : Str := ((s.dropWhile (· = '/')).reverse.dropWhile (· = '/')).reverse

/-- backends/kubernetes/controller.py:266-269 the validation of `proxy_prefix` -/
def validPrefix (s : Str) : Str := if stripSlashes s = [] then [] else '/' :: stripSlashes s

/-- What Traefik does with a path before it sends the request on (H/gateway/middleware.yaml:7-10, 19-22). -/
inductive Middleware where
  | stripPrefix (p : Str)
  | stripClusters (p : Str)
  deriving DecidableEq

/-- Where a request goes: to the API, or to the service of a cluster (H/gateway/ingressroute.yaml,
backends/kubernetes/controller.py:1262-1276). -/
inductive Target where
  | api
  | cluster (ns service : Str)
  deriving DecidableEq

/-- A route of Traefik (H/gateway/ingressroute.yaml, backends/kubernetes/controller.py:1262-1276). -/
structure Route where
  rule : Str
  target : Target
  middlewares : List Middleware
  deriving DecidableEq

/-- H/gateway/ingressroute.yaml:11-19, H/gateway/middleware.yaml:11-23 the route to the API -/
def apiRoute (pre : Str) : Route where
  rule := pre
  target := .api
  middlewares := if pre ≠ ['/'] then [.stripPrefix (trimSlash pre)] else []

/-- The route to a cluster (backends/kubernetes/controller.py:1251-1278), with the middleware of H/controller/configmap.yaml:14-18 and
H/gateway/middleware.yaml:8-10. -/
def clusterRoute (c : Kube.Ctl) (pre ns name : Str) : Route :=
  let w := Kube.webRoute { c with proxyPrefix := validPrefix pre } ns name
  { rule := w.1, target := .cluster w.2.2 w.2.1, middlewares := [.stripClusters (trimSlash pre)] }

/-- Traefik: paths begin with a slash (H/gateway/middleware.yaml:10). -/
def leadingSlash (s : Str) : Str := if s.head? = some '/' then s else '/' :: s

/-- The characters `[a-zA-Z0-9.-]` (H/gateway/middleware.yaml:10) -/
def nameChar (c : Char) : Bool := c.isAlphanum || c = '.' || c = '-'

/-- Traefik's `stripPrefix` and `stripPrefixRegex` (H/gateway/middleware.yaml:7-10, 19-22). The prefix in the regular expression
`{prefix}/clusters/[a-zA-Z0-9.-]+` is taken literally, which is right for those without characters that have a meaning there. -/
def Middleware.apply (path : Str) : Middleware → Str
  | .stripPrefix p => if p.isPrefixOf path then leadingSlash (path.drop p.length) else path
  | .stripClusters p =>
    let lit := p ++ "/clusters/".toList
    if lit.isPrefixOf path ∧ ((path.drop lit.length).head?.map nameChar) = some true then
      leadingSlash ((path.drop lit.length).dropWhile nameChar)
    else path

/-- Traefik: of the rules that match, the longest is taken (H/gateway/ingressroute.yaml:11, controller.py:1266). -/
def choose (path : Str) : List Route → Option Route
  | [] => none
  | r :: rs =>
    if r.rule.isPrefixOf path then
      match choose path rs with
      | some r' => if r.rule.length < r'.rule.length then some r' else some r
      | none => some r
    else choose path rs

/-- Where a request arrives, and with which path; `none` is Traefik's 404 (H/gateway/ingressroute.yaml, controller.py:1251-1278). -/
def forward (routes : List Route) (path : Str) : Option (Target × Str) :=
  (choose path routes).map fun r => (r.target, r.middlewares.foldl Middleware.apply path)

/-- The routes of a release with some clusters. (H/gateway/ingressroute.yaml, controller.py:1251-1278) -/
def routes (c : Kube.Ctl) (pre : Str) (clusters : List (Str × Str)) : List Route :=
  apiRoute pre :: clusters.map (fun k => clusterRoute c pre k.1 k.2)

end Verif.Helm
