import Verif.Api.Model
import Verif.Dict
/-
Model of the client of the gateway: requests, reports, waiting for a cluster, and the life of a cluster
object: dask-gateway/dask_gateway/client.py.
-/
namespace Verif.Client
open Verif.Api (Status View)

/-! ### Requests -/

/-- A response (client.py:397, 401): its status, what `resp.json()` gives (`none` if it raises) and
`resp.text()`. -/
structure Resp where
  status : Nat
  json : Option Json
  text : Str
  deriving DecidableEq

/-- What a call of the client raises. The message of an error is the JSON value or the text that the
server sent (client.py:394-420). -/
inductive Exn where
  /-- `ValueError` (client.py:414) -/
  | value (msg : Json)
  /-- `GatewayClusterError` (client.py:416, 581, 586) -/
  | cluster (msg : Json)
  /-- `GatewayServerError` (client.py:418) -/
  | server (msg : Json)
  /-- what `raise_for_status` raises (client.py:420) -/
  | http (status : Nat)
  /-- a timeout of the HTTP client (client.py:397, 401) -/
  | timeout
  /-- any other exception, such as of the connection or of the authentication (client.py:397-404) -/
  | other
  deriving DecidableEq

/-- The hooks of the authentication (auth.py:59-97): the headers and the context, `none` where it raises;
whether the response is accepted, and not answered with an exception. -/
structure Hooks (κ : Type) where
  pre : Resp → Option (List (Str × Str) × κ)
  post : Resp → κ → Bool

/-- client.py:407-411 the message of an error. -/
def errorMsg (r : Resp) : Json :=
  match r.json with
  | some (.obj d) =>
    match lookup d "error".toList with
    | some m => m
    | none => .str r.text
  | _ => .str r.text

/-- client.py:406-422 what is made of the last response. -/
def conclude (r : Resp) : Except Exn Resp :=
  if r.status ≥ 400 then
    if r.status = 404 ∨ r.status = 422 then .error (.value (errorMsg r))
    else if r.status = 409 then .error (.cluster (errorMsg r))
    else if r.status = 500 then .error (.server (errorMsg r))
    else .error (.http r.status)
  else .ok r

/-- client.py:385-422 `_request`: the headers of the requests sent, in order, and the result. `send` is
the answer to the first or second request, given its headers. -/
def request {κ : Type} (auth : Hooks κ) (send : Nat → List (Str × Str) → Except Exn Resp) :
    List (List (Str × Str)) × Except Exn Resp :=
  match send 0 [] with
  | .error e => ([[]], .error e)
  | .ok r =>
    if r.status = 401 then
      match auth.pre r with
      | none => ([[]], .error .other)
      | some (headers, context) =>
        match send 1 headers with
        | .error e => ([[], headers], .error e)
        | .ok r' =>
          if auth.post r' context then ([[], headers], conclude r')
          else ([[], headers], .error .other)
    else ([[]], conclude r)

/-! ### Reports -/

/-- client.py:125-184 `ClusterReport`. -/
structure Report where
  name : Str
  options : Json
  status : Status
  schedulerAddress : Option Str
  dashboardLink : Option Str
  startTime : Int
  stopTime : Option Int
  tlsCert : Option Str
  tlsKey : Option Str
  deriving DecidableEq

/-- client.py:199-224 `_from_json`, from what the server shows of a cluster; times stay in milliseconds,
and `none` is the exception for a cluster without start time. The status travels by its name, and the
names are the same on both sides (client.py:118-122, dask_gateway_server/models.py:34-38). -/
def Report.fromJson (publicAddress proxyAddress : Str) (v : View) : Option Report :=
  match v.startTime with
  | none => none
  | some startTime =>
    some
      { name := v.name
        options := v.options
        status := v.status
        schedulerAddress := if v.status = .running then some (proxyAddress ++ '/' :: v.name) else none
        dashboardLink :=
          match v.dashboardRoute with
          | none => none
          | some [] => none
          | some r => some (publicAddress ++ r)
        startTime
        stopTime := v.stopTime
        tlsCert := v.tlsCert
        tlsKey := v.tlsKey }

/-- client.py:570-590 `_wait_for_start`, over the outcomes of the requests for a report one after the
other; `none` is that it still waits. `builtin` tells that a timeout of the HTTP client is a built-in
`TimeoutError`, as it is since Python 3.11. -/
def waitForStart (builtin : Bool) : List (Except Exn Report) → Option (Except Exn Report)
  | [] => none
  | .error e :: l => if e = .timeout ∧ builtin = true then waitForStart builtin l else some (.error e)
  | .ok r :: l =>
    match r.status with
    | .running => some (.ok r)
    | .failed => some (.error (.cluster (.str "failed to start".toList)))
    | .stopped => some (.error (.cluster (.str "already stopped".toList)))
    | _ => waitForStart builtin l

/-! ### Requests of users -/

/-- client.py:424-432 the query of a list request; no query is `none`. The statuses are members of the
enumeration or their names in any case, here already members. -/
def statusQuery : Option (List Status) → Option Str
  | none => none
  | some l => some (List.intercalate [','] (l.map Status.name))

/-- client.py:667-675, 694-702 whether a scale or adapt request that was answered warns, and of what. An answer that is
JSON but no object has no `get` and raises; the server sends none, and it counts as no warning here. -/
def warning (r : Resp) : Option Json :=
  match r.json with
  | some (.obj d) =>
    let ok := (lookup d "ok".toList).getD (.bool true)
    let msg := (lookup d "msg".toList).getD .null
    if !Api.truthy ok && Api.truthy msg then some msg else none
  | _ => none

end Verif.Client
