import Verif.Kube.Scaling
/-
Model of how the Kubernetes controller keeps the workers of one running cluster, while users ask for more or
fewer, pods start, end and are deleted by others, and the informers show all this late:
dask-gateway-server/dask_gateway_server/backends/kubernetes/controller.py:503-605, 717-881.

As in `Verif.KubeLoop.Model` the queue is a flag for one cluster and a backoff a timer. The scheduler runs
throughout, and the status of the cluster does not change.
-/
namespace Verif.KubeLoop
open Verif.Kube

/-- The controller, the queue, and what is true of the API server (controller.py:74-142, 379-443, 742-881). -/
structure Crew where
  info : Info
  task : Option Task
  /-- whether a request of the task failed (controller.py:821, 852, 880) -/
  failed : Bool
  /-- the worker pods that exist -/
  pods : List Str
  /-- the set a pod belongs in, if its container has a status yet that fits one (controller.py:520-538) -/
  state : Str → Option Kind
  /-- pods with changes that the informer has not shown -/
  news : List Str
  /-- `spec.replicas` of the cluster object -/
  replicas : Int
  /-- `spec.replicas` as the informer has it -/
  shown : Int
  /-- in the queue -/
  queued : Bool
  /-- waiting for a backoff -/
  timer : Bool

/-- What can happen (controller.py:503-605, 717-881). -/
inductive CrewOp where
  | ask (n : Int)
  | show
  | begin (now : Rat)
  | nextBatch
  | created (pod : Str)
  | createLost (pod : Str)
  | createFailed
  | deleted (pod : Str)
  | deleteLost (pod : Str)
  | deleteFailed (pod : Str)
  | finish
  | fire
  | turn (pod : Str) (kind : Kind)
  | lost (pod : Str)
  | showOld (pod : Str) (kind : Kind) (now : Rat)
  | showPod (pod : Str) (now : Rat)
  | restart (now : Rat)
  | poke

/-- A new running cluster without workers (controller.py:81-87, 706). -/
def Crew.init (now : Rat) : Crew :=
  { info := .init now, task := none, failed := false, pods := [], state := fun _ => none, news := []
    replicas := 0, shown := 0, queued := true, timer := false }

/-- backend.py:457-497: the scheduler's heartbeat asks for a number of workers. -/
def Crew.ask (s : Crew) (n : Int) : Crew := { s with replicas := n }

/-- controller.py:572-575: the informer shows the cluster object. -/
def Crew.show (s : Crew) : Crew := { s with shown := s.replicas, queued := true }

/-- controller.py:576-592, 742-755, 823-852, 854-881 the next reconciliation starts. -/
def Crew.begin (s : Crew) (order : List Str → List Str) (now : Rat) : Crew :=
  if s.queued = true ∧ s.task = none then
    match s.info.plan order now s.shown with
    | .wait => { s with queued := false }
    | .up count del =>
      { s with
        queued := false
        info := s.info.expect count del.length now
        task := some { size := 1, inflight := 0, todo := count, bad := false, del, deleting := [] } }
    | .down del =>
      if del = [] then { s with queued := false }
      else
        { s with
          queued := false
          info := s.info.expect 0 del.length now
          task := some { size := 1, inflight := 0, todo := 0, bad := false, del, deleting := [] } }
  else s

/-- controller.py:809-820, 848-851 when the requests of a batch have been answered: give up if one
failed, send the next batch, or send the deletions. -/
def Crew.nextBatch (s : Crew) : Crew :=
  match s.task with
  | none => s
  | some t =>
    if t.inflight = 0 then
      if t.bad then
        { s with
          info := { s.info with creates := s.info.creates - t.todo }
          task := some { t with todo := 0, bad := false } }
      else if 0 < t.todo then
        { s with
          task := some
            { t with size := t.size * 2, inflight := min t.size t.todo, todo := t.todo - min t.size t.todo } }
      else { s with task := some { t with del := [], deleting := t.deleting ++ t.del } }
    else s

/-- A name that is not in use (controller.py:760, the API server makes it up). -/
def Crew.Unused (s : Crew) (t : Task) (pod : Str) : Prop :=
  pod ∉ s.info.all ∧ pod ∉ s.pods ∧ pod ∉ s.news ∧ pod ∉ t.del ∧ pod ∉ t.deleting

instance (s : Crew) (t : Task) (pod : Str) : Decidable (s.Unused t pod) := by
  unfold Crew.Unused; infer_instance

/-- The API server has made a pod; its container has no status yet (controller.py:760, 520-522). -/
def Crew.add (s : Crew) (pod : Str) : Crew :=
  { s with
    pods := s.pods ++ [pod], news := s.news ++ [pod]
    state := fun p => if p = pod then none else s.state p }

/-- controller.py:758-762: the API server creates a pod and answers. -/
def Crew.created (s : Crew) (pod : Str) : Crew :=
  match s.task with
  | none => s
  | some t =>
    if 0 < t.inflight ∧ s.Unused t pod then
      { s.add pod with task := some { t with inflight := t.inflight - 1 } }
    else s

/-- controller.py:765-782: the controller takes a creation request for failed. -/
def Crew.noCreate (s : Crew) (t : Task) : Crew :=
  { s with
    info := { s.info with creates := s.info.creates - 1 }
    task := some { t with inflight := t.inflight - 1, bad := true }, failed := true }

/-- controller.py:765-782: a creation request fails. -/
def Crew.createFailed (s : Crew) : Crew :=
  match s.task with
  | none => s
  | some t => if 0 < t.inflight then s.noCreate t else s

/-- controller.py:765-782: the API server creates a pod but the answer is lost. -/
def Crew.createLost (s : Crew) (pod : Str) : Crew :=
  match s.task with
  | none => s
  | some t => if 0 < t.inflight ∧ s.Unused t pod then (s.add pod).noCreate t else s

/-- A pod is deleted (controller.py:543-556, 786). -/
def Crew.drop (s : Crew) (pod : Str) : Crew := { s with pods := sDel s.pods pod, news := sAdd s.news pod }

/-- controller.py:784-787: the API server deletes a pod and answers. -/
def Crew.deleted (s : Crew) (pod : Str) : Crew :=
  match s.task with
  | none => s
  | some t =>
    if pod ∈ t.deleting ∧ pod ∈ s.pods then
      { s.drop pod with task := some { t with deleting := sDel t.deleting pod } }
    else s

/-- controller.py:790-798: the controller takes a deletion request for failed, also if the pod did not exist:
`exc.code` raises. -/
def Crew.noDelete (s : Crew) (t : Task) (pod : Str) : Crew :=
  { s with
    info := { s.info with deletes := s.info.deletes - 1 }
    task := some { t with deleting := sDel t.deleting pod }, failed := true }

/-- controller.py:790-798: a deletion request fails. -/
def Crew.deleteFailed (s : Crew) (pod : Str) : Crew :=
  match s.task with
  | none => s
  | some t => if pod ∈ t.deleting then s.noDelete t pod else s

/-- controller.py:790-798: the API server deletes a pod but the answer is lost. -/
def Crew.deleteLost (s : Crew) (pod : Str) : Crew :=
  match s.task with
  | none => s
  | some t => if pod ∈ t.deleting ∧ pod ∈ s.pods then (s.drop pod).noDelete t pod else s

/-- controller.py:590-605, 852, 880: all requests have been answered. -/
def Crew.finish (s : Crew) : Crew :=
  match s.task with
  | none => s
  | some t =>
    if t.inflight = 0 ∧ t.bad = false ∧ t.todo = 0 ∧ t.del = [] ∧ t.deleting = [] then
      { s with task := none, failed := false, timer := s.timer || s.failed }
    else s

/-- The backoff is over (workqueue.py:100-102). -/
def Crew.fire (s : Crew) : Crew := if s.timer then { s with timer := false, queued := true } else s

/-- A pod changes (controller.py:517-538). -/
def Crew.turn (s : Crew) (pod : Str) (kind : Kind) : Crew :=
  if pod ∈ s.pods then
    { s with state := fun p => if p = pod then some kind else s.state p, news := sAdd s.news pod }
  else s

/-- A pod is deleted by others than the controller (controller.py:543-556). -/
def Crew.lost (s : Crew) (pod : Str) : Crew := if pod ∈ s.pods then s.drop pod else s

/-- controller.py:516-541 the worker part of `on_pod_update`, for a pod that belongs in a set. -/
def Crew.note (s : Crew) (pod : Str) (kind : Kind) (now : Rat) : Crew :=
  { s with
    info := (s.info.update kind pod).1
    queued := s.queued || ((s.info.update kind pod).2 && decide (kind = .failed)) ||
      (s.info.update kind pod).1.shouldTrigger now }

/-- controller.py:543-556 the worker part of `on_pod_delete`. -/
def Crew.forget (s : Crew) (pod : Str) (now : Rat) : Crew :=
  { s with info := s.info.deleted pod, queued := s.queued || (s.info.deleted pod).shouldTrigger now }

/-- controller.py:503-541: the informer shows an earlier state of a pod. -/
def Crew.showOld (s : Crew) (pod : Str) (kind : Kind) (now : Rat) : Crew :=
  if pod ∈ s.news ∧ (pod ∈ s.pods → s.state pod ≠ none) then s.note pod kind now else s

/-- controller.py:503-556: the informer shows a pod as it is: one whose container has no status is
ignored. -/
def Crew.showPod (s : Crew) (pod : Str) (now : Rat) : Crew :=
  if pod ∈ s.news then
    if pod ∈ s.pods then
      match s.state pod with
      | some kind => { s.note pod kind now with news := sDel s.news pod }
      | none => { s with news := sDel s.news pod }
    else { s.forget pod now with news := sDel s.news pod }
  else s

/-- What the informer lists (utils.py:137-150, controller.py:503-541). -/
def noteAll (state : Str → Option Kind) : List Str → Info → Info
  | [], i => i
  | p :: l, i =>
    match state p with
    | some kind => noteAll state l (i.update kind p).1
    | none => noteAll state l i

/-- controller.py:401-443, utils.py:137-175: the controller is killed and started again: the informers list
what there is before anything is reconciled. -/
def Crew.restart (s : Crew) (now : Rat) : Crew :=
  { s with
    info := noteAll s.state s.pods (.init now), task := none, failed := false, news := [], shown := s.replicas
    queued := true, timer := false }

/-- The cluster is put in the queue for another reason: the scheduler's pod is shown, or a worker's pod that
fits no set (controller.py:510-515, 540-541). -/
def Crew.poke (s : Crew) : Crew := { s with queued := true }

/-- One step (controller.py:503-605, 717-881). -/
def Crew.step (order : List Str → List Str) (s : Crew) : CrewOp → Crew
  | .ask n => s.ask n
  | .show => s.show
  | .begin now => s.begin order now
  | .nextBatch => s.nextBatch
  | .created pod => s.created pod
  | .createLost pod => s.createLost pod
  | .createFailed => s.createFailed
  | .deleted pod => s.deleted pod
  | .deleteLost pod => s.deleteLost pod
  | .deleteFailed pod => s.deleteFailed pod
  | .finish => s.finish
  | .fire => s.fire
  | .turn pod kind => s.turn pod kind
  | .lost pod => s.lost pod
  | .showOld pod kind now => s.showOld pod kind now
  | .showPod pod now => s.showPod pod now
  | .restart now => s.restart now
  | .poke => s.poke

end Verif.KubeLoop
