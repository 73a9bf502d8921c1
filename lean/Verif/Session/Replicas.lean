import Verif.Session.Model
/-
Model of a gateway with several replicas of its API server, as the chart and the documentation allow
(resources/helm/dask-gateway/templates/gateway/deployment.yaml:8, values.yaml:15, docs/source/install-kube.rst:24-25): each
replica has its own cache of cookies and its own name for its cookie (server auth.py:62-64, 79-82), so a client keeps one
cookie for each; any request may go to any replica. The case that the name of the cookie is configured is not modelled.
"server" and "client" in a citation are as in `Verif.Session.Model`.
-/
namespace Verif.Session.Replicas

open Verif.Auth (User Cache Op)
open Verif.Client (Resp Exn conclude)

/-- The replicas by number, each with the cookie of the client for it (server auth.py:62-64, 79-82, client
client.py:386-395). -/
abbrev Worlds := Nat → World

/-- One replica changes (server auth.py:84-107). -/
def upd (w : Worlds) (i : Nat) (x : World) : Worlds := fun j => if j = i then x else w j

/-- A call of the user (client client.py:385-422): the replicas that get its first request and, if there is one, the
second; the requests; and what the handler does. -/
structure RCall where
  at1 : Nat
  at2 : Nat
  call : Call

/-- client client.py:385-422 `_request`, see `Call.go`. -/
def RCall.go (k : RCall) (h : Hooks) (w : Worlds) : Worlds × List User × Except Exn Resp :=
  match k.call.first.go k.call.handler none (w k.at1) with
  | (x, hs, r) =>
    if r.body.status = 401 then
      match h.pre with
      | none => (upd w k.at1 x, hs, .error .other)
      | some header =>
        match k.call.second.go k.call.handler (some header) (upd w k.at1 x k.at2) with
        | (y, hs', r') =>
          (upd (upd w k.at1 x) k.at2 y, hs ++ hs', if h.post r'.www = true then conclude r'.body else .error .other)
    else (upd w k.at1 x, hs, conclude r.body)

/-- A history of one client: its calls, uses of the cache of a replica by others, and replicas that are replaced
(server auth.py:62-64, 79-82). -/
inductive REv where
  | call (k : RCall)
  | others (i : Nat) (l : List Op)
  | restart (i : Nat)

/-- The history so far (server auth.py:84-107, client client.py:385-422). -/
def run (m : Rat) (h : Hooks) : List REv → Worlds → Worlds × List (List User × Except Exn Resp)
  | [], w => (w, [])
  | .call k :: es, w =>
    let (w', hs, r) := k.go h w
    let (w'', l) := run m h es w'
    (w'', (hs, r) :: l)
  | .others i l :: es, w => run m h es (upd w i { w i with cache := ((w i).cache.run l).1 })
  | .restart i :: es, w => run m h es (upd w i { cache := Cache.empty m, jar := none })

end Verif.Session.Replicas
