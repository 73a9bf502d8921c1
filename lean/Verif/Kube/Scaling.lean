import Verif.Kube.Pods
/-
The scaling of one running cluster by the Kubernetes controller, as it proceeds concurrently with what
the informers see: dask-gateway-server/dask_gateway_server/backends/kubernetes/controller.py:742-881.

The state also has what is true of the API server: the worker pods that exist but have not been seen,
and those deleted whose deletion has not been seen. The work queue gives a cluster to one reconciler at
a time (properties C01-C07), so there is at most one task.
-/
namespace Verif.Kube

/-- Where `handle_scale_up` or `handle_scale_down` is (controller.py:807-821, 847-851, 876-879). -/
structure Task where
  /-- `batch_size` (controller.py:808) -/
  size : Nat
  /-- creation requests sent and not answered (controller.py:814) -/
  inflight : Nat
  /-- `remaining` (controller.py:807, 815) -/
  todo : Nat
  /-- whether a request of the batch failed (controller.py:816) -/
  bad : Bool
  /-- deletions still to be requested (controller.py:849) -/
  del : List Str
  /-- deletion requests sent and not answered (controller.py:848, 876) -/
  deleting : List Str

/-- The controller's view and the API server (controller.py:74-142, 742-881). -/
structure Sys where
  info : Info
  task : Option Task
  /-- pods that exist and have not been seen -/
  unseen : List Str
  /-- pods deleted whose deletion has not been seen -/
  gone : List Str

/-- What can happen (controller.py:503-556, 742-881). -/
inductive SOp where
  | reconcile (now : Rat) (replicas : Int)
  | nextBatch
  | created (pod : Str)
  | createFailed
  | deletedPod (pod : Str)
  | deleteFailed (pod : Str)
  | finish
  | seen (pod : Str) (kind : Kind)
  | seenDeleted (pod : Str)

/-- controller.py:742-755, 823-852, 854-881 the start of a reconciliation. -/
def Sys.reconcile (s : Sys) (order : List Str → List Str) (now : Rat) (replicas : Int) : Sys :=
  match s.task with
  | some _ => s
  | none =>
    match s.info.plan order now replicas with
    | .wait => s
    | .up count del =>
      { s with
        info := s.info.expect count del.length now
        task := some { size := 1, inflight := 0, todo := count, bad := false, del, deleting := [] } }
    | .down del =>
      if del = [] then s
      else
        { s with
          info := s.info.expect 0 del.length now
          task := some { size := 1, inflight := 0, todo := 0, bad := false, del, deleting := [] } }

/-- controller.py:809-820, 848-851 when the requests of a batch have been answered: give up if one
failed, send the next batch, or send the deletions. -/
def Sys.nextBatch (s : Sys) : Sys :=
  match s.task with
  | none => s
  | some t =>
    if t.inflight = 0 then
      if t.bad then
        { s with
          info := { s.info with creates := s.info.creates - t.todo }
          task := some { t with todo := 0, bad := false } }
      else if 0 < t.todo then
        let n := min t.size t.todo
        { s with task := some { t with size := t.size * 2, inflight := n, todo := t.todo - n } }
      else { s with task := some { t with del := [], deleting := t.deleting ++ t.del } }
    else s

/-- controller.py:758-762: the API server creates a pod, under a name not in use. -/
def Sys.created (s : Sys) (pod : Str) : Sys :=
  match s.task with
  | none => s
  | some t =>
    if 0 < t.inflight ∧ pod ∉ s.info.all ∧ pod ∉ s.unseen then
      { s with task := some { t with inflight := t.inflight - 1 }, unseen := s.unseen ++ [pod] }
    else s

/-- controller.py:765-782: a creation request fails. -/
def Sys.createFailed (s : Sys) : Sys :=
  match s.task with
  | none => s
  | some t =>
    if 0 < t.inflight then
      { s with
        info := { s.info with creates := s.info.creates - 1 }
        task := some { t with inflight := t.inflight - 1, bad := true } }
    else s

/-- controller.py:784-787: the API server deletes a pod. -/
def Sys.deletedPod (s : Sys) (pod : Str) : Sys :=
  match s.task with
  | none => s
  | some t =>
    if pod ∈ t.deleting then
      { s with task := some { t with deleting := sDel t.deleting pod }, gone := s.gone ++ [pod] }
    else s

/-- controller.py:790-798: a deletion request fails. -/
def Sys.deleteFailed (s : Sys) (pod : Str) : Sys :=
  match s.task with
  | none => s
  | some t =>
    if pod ∈ t.deleting then
      { s with
        info := { s.info with deletes := s.info.deletes - 1 }
        task := some { t with deleting := sDel t.deleting pod } }
    else s

/-- controller.py:852, 880: all requests have been answered. -/
def Sys.finish (s : Sys) : Sys :=
  match s.task with
  | none => s
  | some t =>
    if t.inflight = 0 ∧ t.bad = false ∧ t.todo = 0 ∧ t.del = [] ∧ t.deleting = [] then { s with task := none }
    else s

/-- controller.py:503-541 the informer shows a pod that exists, in a state that puts it in a set. A
stopped pod stays stopped. -/
def Sys.seen (s : Sys) (pod : Str) (kind : Kind) : Sys :=
  if (pod ∈ s.unseen ∨ pod ∈ s.info.all) ∧
      (pod ∈ s.info.sets .succeeded ∨ pod ∈ s.info.sets .failed → kind = .succeeded ∨ kind = .failed)
  then { s with info := (s.info.update kind pod).1, unseen := sDel s.unseen pod }
  else s

/-- controller.py:543-556 the informer shows the deletion of a pod. -/
def Sys.seenDeleted (s : Sys) (pod : Str) : Sys :=
  if pod ∈ s.gone then { s with info := s.info.deleted pod, gone := sDel s.gone pod } else s

/-- One step; operations that cannot happen in a state leave it alone (controller.py:503-556, 742-881). -/
def Sys.step (order : List Str → List Str) (s : Sys) : SOp → Sys
  | .reconcile now replicas => s.reconcile order now replicas
  | .nextBatch => s.nextBatch
  | .created pod => s.created pod
  | .createFailed => s.createFailed
  | .deletedPod pod => s.deletedPod pod
  | .deleteFailed pod => s.deleteFailed pod
  | .finish => s.finish
  | .seen pod kind => s.seen pod kind
  | .seenDeleted pod => s.seenDeleted pod

/-- A cluster without workers (controller.py:81-87). -/
def Sys.init (now : Rat) : Sys := { info := .init now, task := none, unseen := [], gone := [] }

end Verif.Kube
