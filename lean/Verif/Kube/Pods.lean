import Verif.Dict
/-
Model of the pod bookkeeping and scaling of the Kubernetes controller:
dask-gateway-server/dask_gateway_server/backends/kubernetes/controller.py:42-142, 503-556, 717-881.

Sets are lists without repetition. Times are rational seconds of `time.monotonic`.
-/
namespace Verif.Kube

/-- The sets of pods a cluster keeps (controller.py:83-86). -/
inductive Kind where
  | pending
  | running
  | succeeded
  | failed
  deriving DecidableEq

/-- `s.add(x)` (controller.py:113, 120). -/
def sAdd (s : List Str) (x : Str) : List Str := if x ∈ s then s else s ++ [x]

/-- `s.discard(x)` (controller.py:122, 140, 142). -/
def sDel (s : List Str) (x : Str) : List Str := s.filter (fun y => y ≠ x)

/-- `s.union(t)` (controller.py:745, 837, 863). -/
def sUnion (s t : List Str) : List Str := s ++ t.filter (fun y => y ∉ s)

/-- controller.py:74-87 `ClusterInfo`. -/
structure Info where
  all : List Str
  sets : Kind → List Str
  creates : Int
  deletes : Int
  stamp : Rat

/-- controller.py:81-87 `__init__`. -/
def Info.init (now : Rat) : Info :=
  { all := [], sets := fun _ => [], creates := 0, deletes := 0, stamp := now }

/-- controller.py:89-95 `set_expectations`. -/
def Info.expect (i : Info) (creates deletes : Int) (now : Rat) : Info :=
  { i with creates, deletes, stamp := now }

/-- controller.py:97-99 `expectations_fulfilled`. -/
def Info.fulfilled (i : Info) : Bool := decide (i.creates ≤ 0 ∧ i.deletes ≤ 0)

/-- controller.py:101-103 `expectations_expired`. -/
def Info.expired (i : Info) (now : Rat) : Bool := decide (now - i.stamp > 600)

/-- controller.py:105-108 `should_trigger`. -/
def Info.shouldTrigger (i : Info) (now : Rat) : Bool := i.fulfilled || i.expired now

/-- controller.py:110-123 `_update`, with its result: whether the pod is new in the set. -/
def Info.update (i : Info) (kind : Kind) (pod : Str) : Info × Bool :=
  let i1 := if pod ∈ i.all then i else { i with creates := i.creates - 1, all := sAdd i.all pod }
  ({ i1 with sets := fun n => if n = kind then sAdd (i1.sets n) pod else sDel (i1.sets n) pod },
    decide (pod ∉ i.sets kind))

/-- controller.py:137-142 `on_worker_deleted`. -/
def Info.deleted (i : Info) (pod : Str) : Info :=
  if pod ∈ i.all then
    { i with deletes := i.deletes - 1, all := sDel i.all pod, sets := fun n => sDel (i.sets n) pod }
  else i

/-- The state of a container: the first key of `state`, with the exit code of a terminated one
(controller.py:534-535); `empty` if there is none, at which `next` raises. -/
inductive CState where
  | waiting
  | running
  | terminated (exitCode : Int)
  | empty
  deriving DecidableEq

/-- The phase of a pod (controller.py:518-533). Any other string counts as `running`. -/
inductive PodPhase where
  | unknown
  | pending
  | succeeded
  | failed
  | running
  deriving DecidableEq

/-- What the controller reads of a pod (controller.py:44-46, 67-68, 509, 517-518); `cluster` and
`component` are the values of its labels. -/
structure Pod where
  ns : Str
  name : Str
  cluster : Option Str
  component : Option Str
  phase : PodPhase
  containers : List (Str × CState)
  deriving DecidableEq

/-- The component name of a worker pod (controller.py:516, 552). -/
def workerName : Str := "dask-worker".toList

/-- The component name of a scheduler pod (controller.py:510, 550). -/
def schedulerName : Str := "dask-scheduler".toList

/-- controller.py:42-47 `get_container_status`: the first status of that name. -/
def Pod.container (p : Pod) (name : Str) : Option CState :=
  match p.containers.find? (fun c => c.1 = name) with
  | some c => some c.2
  | none => none

/-- controller.py:64-71 `get_cluster_key`. -/
def Pod.clusterKey (p : Pod) : Option Str := p.cluster.map (fun c => p.ns ++ '.' :: c)

/-- The result of `get_container_state` (controller.py:50-54). -/
inductive ContainerState where
  | waiting
  | running
  | terminated
  | unknown
  deriving DecidableEq

/-- controller.py:50-61 `get_container_state`; an empty state raises and is shown as unknown here. -/
def Pod.containerState (p : Pod) (name : Str) : ContainerState :=
  if p.phase = .pending then .waiting
  else match p.container name with
    | some .waiting => .waiting
    | some .running => .running
    | some (.terminated _) => .terminated
    | some .empty => .unknown
    | none => .unknown

/-- controller.py:527-538 the set a worker pod is to be put in, if any, given the state of its
container. -/
def classify (phase : PodPhase) (cs : CState) : Option Kind :=
  match phase with
  | .pending => some .pending
  | .succeeded => some .succeeded
  | .failed => some .failed
  | _ =>
    match cs with
    | .terminated code => if code = 0 then some .succeeded else none
    | .running => some .running
    | _ => none

/-- What the pod callbacks read and write: `cluster_info` (a defaultdict) and the keys put in the
queue, latest last (controller.py:503-556). -/
structure Pods where
  infos : Str → Info
  queued : List Str

/-- Set the info of a cluster (controller.py:525, 553 get it from the defaultdict and change it in
place). -/
def Pods.setInfo (s : Pods) (key : Str) (i : Info) : Pods :=
  { s with infos := fun k => if k = key then i else s.infos k }

/-- `self.queue.put(cluster_key)` under a condition (controller.py:515, 541, 551, 556). -/
def Pods.putIf (s : Pods) (cond : Bool) (key : Str) : Pods :=
  if cond then { s with queued := s.queued ++ [key] } else s

/-- controller.py:516-541 the worker part of `on_pod_update`. -/
def Pods.workerUpdate (s : Pods) (stopping : Bool) (now : Rat) (key : Str) (p : Pod) : Pods :=
  if p.phase = .unknown then s
  else match p.container workerName with
    | none => s
    | some cs =>
      match classify p.phase cs with
      | some kind =>
        let (info, change) := (s.infos key).update kind p.name
        let trigger := change && decide (p.phase = .failed)
        (s.setInfo key info).putIf ((trigger || info.shouldTrigger now) && !stopping) key
      | none =>
        -- `next(iter({}))` raises, which the informer catches
        if cs = .empty then s
        else s.putIf ((s.infos key).shouldTrigger now && !stopping) key

/-- controller.py:503-541 `on_pod_update`; `stopped` are the keys in `stopped_clusters`. A pod without
the component label raises, which the informer catches. -/
def Pods.onUpdate (s : Pods) (stopped : Str → Bool) (now : Rat) (p : Pod) : Pods :=
  match p.clusterKey with
  | none => s
  | some key =>
    if p.component = some schedulerName then
      s.putIf (decide (p.containerState schedulerName = .running ∨
        p.containerState schedulerName = .terminated) && !stopped key) key
    else if p.component = some workerName then s.workerUpdate (stopped key) now key p
    else s

/-- controller.py:543-556 `on_pod_delete`. -/
def Pods.onDelete (s : Pods) (stopped : Str → Bool) (now : Rat) (p : Pod) : Pods :=
  match p.clusterKey with
  | none => s
  | some key =>
    if p.component = some schedulerName ∧ stopped key = false then s.putIf true key
    else if p.component = some workerName then
      let info := (s.infos key).deleted p.name
      (s.setInfo key info).putIf (info.shouldTrigger now && !stopped key) key
    else s

/-- controller.py:745-747 `replicas - n_workers`. -/
def Info.delta (i : Info) (replicas : Int) : Int :=
  replicas - (sUnion (i.sets .running) (i.sets .pending)).length

/-- `l[:n]` (controller.py:859). -/
def pySlice {α : Type} (l : List α) (n : Int) : List α :=
  if 0 ≤ n then l.take n.toNat else l.take (l.length + n).toNat

/-- What a reconciliation of a running cluster does about its workers (controller.py:742-755). -/
inductive Scale where
  | wait
  | up (count : Nat) (delete : List Str)
  | down (delete : List Str)
  deriving DecidableEq

/-- controller.py:742-755, 837, 858-875 what is created and deleted; `order` is the iteration order of
the set of pending pods. -/
def Info.plan (i : Info) (order : List Str → List Str) (now : Rat) (replicas : Int) : Scale :=
  if i.shouldTrigger now then
    if i.delta replicas > 0 then
      .up (i.delta replicas).toNat (sUnion (i.sets .succeeded) (i.sets .failed))
    else
      .down (pySlice (order (i.sets .pending)) (i.delta replicas) ++
        sUnion (i.sets .succeeded) (i.sets .failed))
  else .wait

/-- The outcome of `batch_create_pods`: requests sent, how many of them failed, requests never sent
(all of which are taken off the expectations), and whether any failed (controller.py:800-821). -/
structure Batches where
  sent : Nat
  bad : Nat
  unsent : Nat
  failed : Bool
  deriving DecidableEq

/-- controller.py:810-814 the number of failures among `n` requests from the `from`-th on. -/
def countBad (ok : Nat → Bool) (start : Nat) : Nat → Nat
  | 0 => 0
  | n + 1 => countBad ok start n + (if ok (start + n) then 0 else 1)

/-- controller.py:807-821 the loop of `batch_create_pods`; `ok n` tells whether the `n`-th request
succeeds. The `1` in the batch size is its value at least (it doubles from 1). -/
def batchLoop (ok : Nat → Bool) (sent bad remaining batchSize : Nat) : Batches :=
  if h : 0 < remaining then
    let n := min (max 1 batchSize) remaining
    let bad' := countBad ok sent n
    if 0 < bad' then
      { sent := sent + n, bad := bad + bad', unsent := remaining - n, failed := true }
    else batchLoop ok (sent + n) bad (remaining - n) (batchSize * 2)
  else { sent, bad, unsent := 0, failed := false }
termination_by remaining
decreasing_by omega

/-- controller.py:800-821 `batch_create_pods`. -/
def batchCreate (ok : Nat → Bool) (count : Nat) : Batches := batchLoop ok 0 0 count 1

/-- controller.py:766-767, 818 the expected creations after `batch_create_pods`, if none of the new
pods has been seen meanwhile. -/
def Info.afterCreates (i : Info) (b : Batches) : Info :=
  { i with creates := i.creates - b.bad - b.unsent }

end Verif.Kube
