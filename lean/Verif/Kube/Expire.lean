import Verif.Dict
import Verif.Api.Model
import Verif.Kube.Objects
/-
Model of the removal of the records of ended clusters by the Kubernetes controller:
dask-gateway-server/dask_gateway_server/backends/kubernetes/controller.py:477-501, 572-581, 607-636.

Times are in milliseconds. What else the controller does for a cluster is in Verif/Kube/Phases.lean.
-/
namespace Verif.Kube

/-- A cluster object as far as its removal is concerned (controller.py:622-635): whether its phase is
`Stopped` or `Failed`, and its `completionTime` if there is one. -/
structure EObj where
  ns : Str
  name : Str
  ended : Bool
  completion : Option Int
  deriving DecidableEq

/-- The state: the informer's cache and `stopped_clusters` (controller.py:375). -/
structure Expire where
  store : Str → Option EObj
  stopped : List (Str × Int)

/-- controller.py:375 the start. -/
def Expire.init : Expire := { store := fun _ => none, stopped := [] }

/-- What happens, in order (controller.py:482-501, 572-636). -/
inductive EOp where
  /-- an object is seen (controller.py:572-575) -/
  | shown (o : EObj)
  /-- an object is seen to be deleted (controller.py:577-581) -/
  | gone (ns name : Str)
  /-- a reconciler handles a cluster (controller.py:607-636) -/
  | reconcile (key : Str) (now : Int)

/-- controller.py:577-581 and 619-636: one step. There is no suspension between the reading of the object
and the update of `stopped_clusters`. -/
def Expire.step (s : Expire) : EOp → Expire
  | .shown o => { s with store := fun k => if k = fullName o.ns o.name then some o else s.store k }
  | .gone ns name =>
    { store := fun k => if k = fullName ns name then none else s.store k
      stopped := s.stopped.filter (fun e => e.1 ≠ fullName ns name) }
  | .reconcile key now =>
    match s.store key with
    | none => s
    | some o => if o.ended then { s with stopped := Dict.set s.stopped key (o.completion.getD now) } else s

/-- A history of the controller (controller.py:583-605). -/
def Expire.run (ops : List EOp) : Expire := ops.foldl Expire.step Expire.init

/-- controller.py:485-490 the keys of the expired records, split at the dots. -/
def Expire.expired (s : Expire) (maxAge : Rat) (now : Int) : List (List Str) :=
  (s.stopped.filter (fun e => decide ((e.2 : Rat) ≤ (now : Rat) - maxAge * 1000))).map
    (fun e => Api.splitAll '.' e.1)

/-- `(self.delete_cluster(ns, name) for ns, name in to_delete)` as `asyncio.gather` consumes it
(controller.py:493-494): `none` is the `ValueError` of a key that is not of two parts, and then nothing was
sent, since the calls only run once all are made. -/
def unpackAll : List (List Str) → Option (List (Str × Str))
  | [] => some []
  | [ns, name] :: l => (unpackAll l).map (fun r => (ns, name) :: r)
  | _ :: _ => none

/-- controller.py:482-501 one round of `cleanup_expired_cluster_records_loop`: the records it asks the API
server to delete. An exception is logged, and the next round comes. -/
def Expire.sweep (s : Expire) (maxAge : Rat) (now : Int) : List (Str × Str) :=
  (unpackAll (s.expired maxAge now)).getD []

end Verif.Kube
