import Verif.Auth.Lemmas
/-
Model of the HTTP interface of a cluster's scheduler, through which the gateway passes on requests to
scale: dask-gateway/dask_gateway/scheduler_preload.py:57-98.
-/
namespace Verif.Sched
open Verif.Auth

/-- A request (scheduler_preload.py:66-78): the `Authorization` header, whether the content type begins
with `application/json`, and what the body parses to (`none` if it does not). -/
structure CommReq where
  auth : Option Str
  isJson : Bool
  body : Option Json
  deriving DecidableEq

/-- What the service is asked to do (scheduler_preload.py:86-95). -/
inductive Effect where
  | scale (count : Json)
  | adapt (minimum maximum : Option Json) (active : Option Json)
  deriving DecidableEq

/-- scheduler_preload.py:72-78 `get_current_user`: an error, or whether it is the gateway. -/
def currentUser (token : Str) (auth : Option Str) : Except Nat Bool :=
  match auth with
  | none => .ok false
  | some [] => .ok false
  | some h =>
    match split1 ' ' h with
    | none => .error 500
    | some (t, v) => .ok (decide (t = "token".toList ∧ v = token))

/-- scheduler_preload.py:83-98 the body of `post`; anything but an object has no `pop` with a default and
raises. -/
def dispatch (msg : Json) : Nat × Option Effect :=
  match msg with
  | .obj m =>
    if lookup m "op".toList = some (.str "scale".toList) then
      (200, some (.scale ((lookup m "count".toList).getD (.num (.int 0)))))
    else if lookup m "op".toList = some (.str "adapt".toList) then
      (200, some (.adapt (lookup m "minimum".toList) (lookup m "maximum".toList)
        (lookup m "active".toList)))
    else (422, none)
  | _ => (500, none)

/-- scheduler_preload.py:66-98 a `POST` to `/api/comm`: `prepare`, the check of the user (Tornado answers
403 to a `POST` without one) and `post`. The status is the one of a request whose effect succeeds. -/
def comm (token : Str) (r : CommReq) : Nat × Option Effect :=
  if r.isJson = true ∧ r.body = none then (500, none)
  else
    match currentUser token r.auth with
    | .error e => (e, none)
    | .ok false => (403, none)
    | .ok true =>
      match r.isJson, r.body with
      | true, some msg => dispatch msg
      | _, _ => (500, none)

end Verif.Sched
