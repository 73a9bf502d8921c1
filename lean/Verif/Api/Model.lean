import Verif.Auth.Model
/-
Model of the gateway's HTTP API: dask-gateway-server/dask_gateway_server/routes.py, of `Cluster`,
`ClusterStatus` and `User` in models.py, and of `forward_message_to_scheduler` in backends/base.py.

The backend behind the API is a list of clusters and a few results of backend calls given by the
environment; a request is handled in one go (in the code, other requests may run at each `await`; a
handler reads the cluster once, and works with that copy). Not modelled: `/api/health` and
`/api/version` (they need no credentials, have no effect and show no cluster), the texts of error
messages, and the waiting of `get` with `wait` (the state is then the one after waiting). An
exception that is not an HTTP exception makes aiohttp answer 500.
-/
namespace Verif.Api

open Verif.Auth (User Outcome identify split1)

/-- models.py:17-38 `ClusterStatus`. -/
inductive Status where
  | pending | running | stopping | stopped | failed
  deriving DecidableEq

/-- The names of the members (models.py:34-38). -/
def Status.name : Status → Str
  | .pending => "PENDING".toList
  | .running => "RUNNING".toList
  | .stopping => "STOPPING".toList
  | .stopped => "STOPPED".toList
  | .failed => "FAILED".toList

/-- All members (models.py:34-38). -/
def Status.all : List Status := [.pending, .running, .stopping, .stopped, .failed]

/-- models.py:7-14 `from_name`; `upper` is `str.upper`, `none` is `ValueError`. -/
def Status.fromName (upper : Str → Str) (s : Str) : Option Status :=
  Status.all.find? (fun x => x.name = upper s)

/-- models.py:64-130 `Cluster`, as the handlers see it. `active` is the backend's own notion of an
active cluster (backends/db_base.py:198-199, used when a list request gives no status). `maxWorkers`
is `config["cluster_max_workers"]` (`Integer(None, min=0, allow_none=True)`, backends/base.py). The
decoded PEM texts are strings. -/
structure Cluster where
  name : Str
  username : Str
  token : Str
  status : Status
  active : Bool
  options : Json := .obj []
  maxWorkers : Option Nat := none
  dashboardAddress : Str := []
  apiAddress : Str := []
  tlsCert : Str := []
  tlsKey : Str := []
  startTime : Option Int := none
  stopTime : Option Int := none

/-- What `to_dict` shows of a cluster (models.py:137-153). -/
structure View where
  name : Str
  dashboardRoute : Option Str
  status : Status
  startTime : Option Int
  stopTime : Option Int
  options : Json
  tlsCert : Option Str
  tlsKey : Option Str
  deriving DecidableEq

/-- models.py:132-153 `Cluster.to_dict` (always called with `full=True`). -/
def Cluster.toDict (c : Cluster) : View :=
  { name := c.name
    dashboardRoute :=
      if c.status = .running ∧ c.dashboardAddress ≠ [] then
        some ("/clusters/".toList ++ c.name ++ "/status".toList)
      else none
    status := c.status
    startTime := c.startTime
    stopTime := c.stopTime
    options := c.options
    tlsCert := if c.status = .running then some c.tlsCert else none
    tlsKey := if c.status = .running then some c.tlsKey else none }

/-- models.py:59-61 `User.has_permissions`. -/
def hasPermissions (u : User) (c : Cluster) : Bool := decide (u.name = c.username)

/-- The messages to a scheduler (routes.py:212, 260). -/
inductive Msg where
  | scale (count : Json)
  | adapt (minimum maximum active : Json)
  deriving DecidableEq

/-- What handling a request does outside the gateway's own answer (routes.py:117-277). -/
inductive Effect where
  /-- `backend.start_cluster` (routes.py:124) -/
  | start (user : User) (options : Json)
  /-- `backend.stop_cluster` (routes.py:176; backends/base.py:136 with `failed=True`) -/
  | stop (cluster : Str) (failed : Bool)
  /-- one POST to the scheduler of a cluster (backends/base.py:113-118) -/
  | contact (cluster : Str) (msg : Msg)
  /-- `asyncio.sleep` (backends/base.py:127) -/
  | sleep (t : Rat)
  /-- `backend.on_cluster_heartbeat` (routes.py:275) -/
  | heartbeat (cluster : Str) (msg : Json)
  deriving DecidableEq

/-- The body of a response (routes.py:90-277). -/
inductive Body where
  | empty
  /-- `{"error": reason}` (routes.py:17-19) -/
  | error
  | options
  | clusters (l : List View)
  | created (name : Str)
  | cluster (v : View)
  /-- `{"ok": not msg, "msg": msg}` (routes.py:217, 265); the message text is the list of the values
  it mentions -/
  | outcome (msg : Option (List Json))
  deriving DecidableEq

/-- How a backend call ends that can raise `PublicException` or another exception (routes.py:123-126, 274-278). -/
inductive CallResult (α : Type) where
  | ok (a : α)
  | publicError
  | otherError

/-- The environment of a request (routes.py:117-277, backends/base.py:106-137). -/
structure Env where
  /-- `str.upper` -/
  upper : Str → Str
  /-- `scheduler_api_retries` (backends/base.py:63-72) -/
  retries : Nat
  /-- whether the n-th attempt to contact the scheduler succeeds -/
  contactOk : Nat → Bool
  /-- the result of `backend.start_cluster` -/
  startResult : CallResult Str
  /-- the result of `backend.on_cluster_heartbeat` -/
  heartbeatResult : CallResult Unit

/-- The authenticated routes (routes.py:88, 98, 115, 146, 164, 180, 220, 268). -/
inductive Route where
  | options
  | list (status : Option Str)
  | create
  | get (name : Str)
  | delete (name : Str)
  | scale (name : Str)
  | adapt (name : Str)
  | heartbeat (name : Str)

/-- A request: its `Authorization` header, what the cookie cache knows about its cookie, what the
full authentication would answer, and its decoded body (`none` is a body that is not JSON) (routes.py:24-49). -/
structure Request where
  route : Route
  header : Option Str := none
  cached : Option User := none
  login : Outcome := .fail 401
  body : Option Json := none

/-- What a handler does: its effects in order, and its response or the code of the exception it
raised (routes.py:9-21). -/
structure Handled where
  effects : List Effect
  result : Except Nat (Nat × Body)

/-- A handler that raises without any effect (routes.py:9-21). -/
def Handled.raise (code : Nat) : Handled := ⟨[], .error code⟩

/-- `backend.get_cluster(name)` (routes.py:154, 170, 186, 226). -/
def find (s : List Cluster) (n : Str) : Option Cluster := s.find? (fun c => c.name = n)

/-- `s.split(c)` (routes.py:108). -/
def splitAll (c : Char) : Str → List Str
  | [] => [[]]
  | x :: s =>
    match splitAll c s with
    | [] => [[]] -- not reached: `splitAll` is never empty
    | p :: ps => if x = c then [] :: p :: ps else (x :: p) :: ps

/-- routes.py:103-110 the statuses a list request asks for; the outer `none` is the 422. -/
def askedStatuses (upper : Str → Str) : Option Str → Option (Option (List Status))
  | none => some none
  | some q => ((splitAll ',' q).mapM (Status.fromName upper)).map some

/-- `backend.list_clusters` for a user (backends/db_base.py:433-447, 907-909). -/
def listClusters (s : List Cluster) (username : Str) (statuses : Option (List Status)) :
    List Cluster :=
  s.filter (fun c => decide (c.username = username) &&
    match statuses with
    | none => c.active
    | some l => decide (c.status ∈ l))

/-- routes.py:100-112 `list_clusters`. -/
def listHandler (env : Env) (s : List Cluster) (u : User) (q : Option Str) : Handled :=
  match askedStatuses env.upper q with
  | none => .raise 422
  | some statuses => ⟨[], .ok (200, .clusters ((listClusters s u.name statuses).map Cluster.toDict))⟩

/-- Python truth (`or {}` on routes.py:121): the false values of JSON. -/
def truthy : Json → Bool
  | .null => false
  | .bool b => b
  | .num n => n ≠ .int 0 && n ≠ .fin 0
  | .str s => s ≠ []
  | .arr l => !l.isEmpty
  | .obj l => !l.isEmpty

/-- routes.py:117-131 `create_cluster`: a body that is not an object has no `get`. -/
def createHandler (env : Env) (u : User) (body : Option Json) : Handled :=
  match body with
  | some (.obj d) =>
    let o := (lookup d "cluster_options".toList).getD .null
    let options := if truthy o then o else .obj []
    match env.startResult with
    | .ok name => ⟨[.start u options], .ok (201, .created name)⟩
    | .publicError => ⟨[.start u options], .error 422⟩
    | .otherError => ⟨[.start u options], .error 500⟩
  | _ => .raise 500

/-- routes.py:148-161 `get_cluster`. -/
def getHandler (s : List Cluster) (u : User) (n : Str) : Handled :=
  match find s n with
  | none => .raise 404
  | some c => if ¬ hasPermissions u c then .raise 403 else ⟨[], .ok (200, .cluster c.toDict)⟩

/-- routes.py:166-177 `delete_cluster`; the user is `None` for a request that came with the
cluster's token. -/
def deleteHandler (s : List Cluster) (u : Option User) (n : Str) : Handled :=
  match find s n with
  | none => ⟨[], .ok (204, .empty)⟩
  | some c =>
    match u with
    | some u =>
      if ¬ hasPermissions u c then .raise 403 else ⟨[.stop n false], .ok (204, .empty)⟩
    | none => ⟨[.stop n false], .ok (204, .empty)⟩

/-- backends/base.py:111-131 the loop of attempts: the effects, and whether one succeeded. The fuel
is the number of retries (the attempt number never exceeds it, or 1). -/
def forwardLoop (env : Env) (c : Cluster) (msg : Msg) :
    (fuel attempt : Nat) → (t : Rat) → List Effect × Bool
  | 0, attempt, _ => ([.contact c.name msg], env.contactOk attempt)
  | fuel + 1, attempt, t =>
    if env.contactOk attempt then ([.contact c.name msg], true)
    else if attempt < env.retries then
      let r := forwardLoop env c msg fuel (attempt + 1) (if t * 2 ≤ 5 then t * 2 else 5)
      (.contact c.name msg :: .sleep t :: r.1, r.2)
    else ([.contact c.name msg], false)

/-- backends/base.py:106-137 `forward_message_to_scheduler`: the effects, and whether it returned
(it raises `PublicException` otherwise). -/
def forward (env : Env) (c : Cluster) (msg : Msg) : List Effect × Bool :=
  if c.status ≠ .running then ([], false)
  else
    let r := forwardLoop env c msg env.retries 1 (1 / 10)
    if r.2 then r else (r.1 ++ [.stop c.name true], false)

/-- routes.py:210-217, 257-265 the end of `scale` and `adapt`. -/
def forwardAndAnswer (env : Env) (c : Cluster) (msg : Msg) (told : Option (List Json)) : Handled :=
  let r := forward env c msg
  ⟨r.1, if r.2 then .ok (200, .outcome told) else .error 409⟩

/-- A limit as a JSON number (routes.py:198-205). -/
def limitJson (m : Nat) : Json := .num (.int m)

/-- routes.py:194-208: what `scale` forwards and tells, or the code it raises. `isinstance(count,
int)` holds of `bool`. -/
def scaleRequest (maxWorkers : Option Nat) (body : Option Json) :
    Except Nat (Msg × Option (List Json)) :=
  match body with
  | some (.obj d) =>
    let count := (lookup d "count".toList).getD .null
    match count.asNum with
    | some (.int k) =>
      if k < 0 then .error 422
      else
        match maxWorkers with
        | none => .ok (.scale count, none)
        | some m =>
          if k > m then .ok (.scale (limitJson m), some [count, limitJson m])
          else .ok (.scale count, none)
    | _ => .error 422
  | _ => .error 500

/-- `a > m` in Python (routes.py:246): `none` is `TypeError`. -/
def pyGt (a : Json) (m : Nat) : Option Bool := a.asNum.map (fun x => Num.lt (.int m) x)

/-- `min(m, a)` in Python (routes.py:249-250): `a` if it is smaller, else `m`; `none` is
`TypeError`. -/
def pyMin (m : Nat) (a : Json) : Option Json :=
  a.asNum.map (fun x => if Num.lt x (.int m) then a else limitJson m)

/-- routes.py:246 `maximum > max_workers or minimum > max_workers`; `none` is `TypeError`. -/
def exceeds (m : Nat) (minimum maximum : Json) : Option Bool :=
  match pyGt maximum m with
  | none => none
  | some true => some true
  | some false => pyGt minimum m

/-- routes.py:241-255: the bounds `adapt` forwards under the limit `m` and what it tells, or the
code it raises. -/
def limitBounds (m : Nat) (minimum maximum : Json) :
    Except Nat ((Json × Json) × Option (List Json)) :=
  let maximum := if maximum = .null then limitJson m else maximum
  let minimum := if minimum = .null then .num (.int 0) else minimum
  match exceeds m minimum maximum with
  | none => .error 500
  | some false => .ok ((minimum, maximum), none)
  | some true =>
    match pyMin m maximum, pyMin m minimum with
    | some maximum', some minimum' =>
      .ok ((minimum', maximum'), some [maximum, minimum, limitJson m, maximum', minimum'])
    | _, _ => .error 500

/-- routes.py:234-255: what `adapt` forwards and tells, or the code it raises. -/
def adaptRequest (maxWorkers : Option Nat) (body : Option Json) :
    Except Nat (Msg × Option (List Json)) :=
  match body with
  | some (.obj d) =>
    let minimum := (lookup d "minimum".toList).getD .null
    let maximum := (lookup d "maximum".toList).getD .null
    let active := (lookup d "active".toList).getD (.bool true)
    match maxWorkers with
    | none => .ok (.adapt minimum maximum active, none)
    | some m =>
      match limitBounds m minimum maximum with
      | .error code => .error code
      | .ok ((lo, hi), told) => .ok (.adapt lo hi active, told)
  | _ => .error 500

/-- The common part of `scale` (routes.py:182-217) and `adapt` (routes.py:222-265). -/
def messageHandler (env : Env) (s : List Cluster) (u : User) (n : Str)
    (request : Option Nat → Except Nat (Msg × Option (List Json))) : Handled :=
  match find s n with
  | none => .raise 404
  | some c =>
    if ¬ hasPermissions u c then .raise 403
    else
      match request c.maxWorkers with
      | .error code => .raise code
      | .ok (msg, told) => forwardAndAnswer env c msg told

/-- routes.py:268-278 `handle_heartbeat`. -/
def heartbeatHandler (env : Env) (n : Str) (body : Option Json) : Handled :=
  match body with
  | none => .raise 500
  | some msg =>
    ⟨[.heartbeat n msg],
      match env.heartbeatResult with
      | .ok _ => .ok (200, .empty)
      | .publicError => .error 409
      | .otherError => .error 500⟩

/-- routes.py:32-39 whether a request carries the token of the cluster it addresses; `none` is the
`ValueError` of a header without a space. -/
def tokenOk (s : List Cluster) (req : Request) (n : Str) : Option Bool :=
  match req.header with
  | none => some false
  | some [] => some false
  | some h =>
    match split1 ' ' h with
    | none => none
    | some (kind, token) =>
      some (decide (kind = "token".toList) &&
        match find s n with
        | none => false
        | some c => decide (c.token = token))

/-- The response to a request (routes.py:9-21, auth.py:84-107). -/
structure Response where
  code : Nat
  body : Body
  effects : List Effect
  /-- the user a new cookie is set for (auth.py:104-105) -/
  cookieFor : Option User := none

/-- routes.py:9-21 `_wrap_error_handler`, and aiohttp's answer to other exceptions. -/
def Handled.respond (h : Handled) (cookieFor : Option User) : Response :=
  match h.result with
  | .ok (code, body) => { code, body, effects := h.effects, cookieFor }
  | .error code => { code, body := .error, effects := h.effects }

/-- auth.py:84-107 `authenticate_and_handle`. -/
def withUser (req : Request) (handler : User → Handled) : Response :=
  match identify req.cached req.login with
  | .fail code => { code, body := .error, effects := [] }
  | .user u => (handler u).respond (if req.cached.isSome then none else some u)

/-- routes.py:24-64 and the table of routes: the handling of one request. -/
def handle (env : Env) (s : List Cluster) (req : Request) : Response :=
  match req.route with
  | .options => withUser req (fun _ => ⟨[], .ok (200, .options)⟩)
  | .list q => withUser req (fun u => listHandler env s u q)
  | .create => withUser req (fun u => createHandler env u req.body)
  | .get n => withUser req (fun u => getHandler s u n)
  | .delete n =>
    match tokenOk s req n with
    | none => { code := 500, body := .error, effects := [] }
    | some true => (deleteHandler s none n).respond none
    | some false => withUser req (fun u => deleteHandler s (some u) n)
  | .scale n =>
    withUser req (fun u => messageHandler env s u n (fun m => scaleRequest m req.body))
  | .adapt n =>
    withUser req (fun u => messageHandler env s u n (fun m => adaptRequest m req.body))
  | .heartbeat n =>
    match tokenOk s req n with
    | none => { code := 500, body := .error, effects := [] }
    | some true => (heartbeatHandler env n req.body).respond none
    | some false => { code := 401, body := .error, effects := [] }

end Verif.Api
