import Verif.Kube.Phases
/-
Model of how the Kubernetes controller works off one cluster while everything around it goes on: requests
of users, the scheduler pod and its endpoints, the informers that show changes late, the queue, and the
calls of a reconciliation one by one, each of which may fail.
dask-gateway-server/dask_gateway_server/backends/kubernetes/controller.py:503-756, 883-1028,
backends/kubernetes/utils.py:88-210, backends/kubernetes/backend.py:416-432, workqueue.py:60-180.

The work queue gives a cluster to one reconciler at a time and keeps what is put meanwhile (properties
C01-C07), so for one cluster it is a flag; a backoff is a timer that puts the cluster again. Workers
enter as one call that may fail, see `Verif.Kube.Scaling`. The scheduler pod is never restarted
(controller.py:1184), so a terminated one stays so. The removal of the cluster object is left out.
-/
namespace Verif.KubeLoop
open Verif.Kube

/-- The call a reconciliation makes next (controller.py:617, 642, 662, 667, 684, 695, 701, 711, 738,
749-755, 896, 903). The phase is the one the cluster gets after its resources are cleaned up. -/
inductive Point where
  | secret
  | pod
  | service
  | route
  | routeTcp
  | delPod (p : Phase)
  | delSecret (p : Phase)
  | scale
  | patch
  deriving DecidableEq

/-- A reconciliation under way: the version of the cluster object it was given, the status so far, and
the next call (controller.py:607-756). -/
structure Run where
  c : KCluster
  st : KStatus
  point : Point
  deriving DecidableEq

/-- How a reconciliation goes on: with a call, to its end, or to an exception or `requeue`
(controller.py:590-605). -/
inductive Next where
  | call (r : Run)
  | done
  | again
  deriving DecidableEq

/-- What the informers show at a moment (controller.py:672, 689-690, 730). -/
structure Seen where
  pod : Option ContainerState
  ready : Bool
  now : Nat
  deriving DecidableEq

/-- controller.py:615-619: patch the status if it differs from that of the given version. -/
def conclude (c : KCluster) (st : KStatus) : Next :=
  if st = c.status then .done else .call ⟨c, st, .patch⟩

/-- controller.py:901-907, 643-646, 712-713, 739-740: the second half of the cleanup, and the phase after
it. -/
def cleanSecret (c : KCluster) (st : KStatus) (p : Phase) (seen : Seen) : Next :=
  if st.secret then .call ⟨c, st, .delSecret p⟩ else conclude c (st.ended p seen.now)

/-- controller.py:893-900 the first half of the cleanup. -/
def clean (c : KCluster) (st : KStatus) (p : Phase) (seen : Seen) : Next :=
  if st.pod then .call ⟨c, st, .delPod p⟩ else cleanSecret c st p seen

/-- controller.py:700-706. -/
def lookTcp (c : KCluster) (st : KStatus) : Next :=
  if st.routeTcp then conclude c { st with phase := some .running } else .call ⟨c, st, .routeTcp⟩

/-- controller.py:694-698. -/
def lookRoute (c : KCluster) (st : KStatus) : Next :=
  if st.route then lookTcp c st else .call ⟨c, st, .route⟩

/-- controller.py:689-690. -/
def lookEndpoints (c : KCluster) (st : KStatus) (seen : Seen) : Next :=
  if seen.ready then lookRoute c st else conclude c st

/-- controller.py:681-687. -/
def lookService (c : KCluster) (st : KStatus) (seen : Seen) : Next :=
  if st.service then lookEndpoints c st seen else .call ⟨c, st, .service⟩

/-- controller.py:674-715: go on with the scheduler pod as it is known. -/
def withPod (c : KCluster) (st : KStatus) (pod : Option ContainerState) (seen : Seen) : Next :=
  match pod with
  | some .running => lookService c st seen
  | some .terminated => clean c st .failed seen
  | _ => conclude c st

/-- controller.py:665-672. -/
def lookPod (c : KCluster) (st : KStatus) (seen : Seen) : Next :=
  if st.pod then withPod c st seen.pod seen else .call ⟨c, st, .pod⟩

/-- controller.py:654-663 the start of `handle_pending_cluster`. -/
def startPending (c : KCluster) (seen : Seen) : Next :=
  let st := { c.status with phase := some c.status.phaseOr }
  if st.secret then lookPod c st seen else .call ⟨c, st, .secret⟩

/-- controller.py:717-742 the start of `handle_running_cluster`. -/
def startRunning (c : KCluster) (seen : Seen) : Next :=
  match (if c.status.pod then seen.pod.getD .terminated else .terminated) with
  | .terminated => clean c c.status .failed seen
  | .running => .call ⟨c, c.status, .scale⟩
  | _ => conclude c c.status

/-- controller.py:607-652 the start of a reconciliation; an unknown phase raises. -/
def start (c : KCluster) (seen : Seen) : Next :=
  match c.status.phaseOr with
  | .stopped => .done
  | .failed => .done
  | .pending =>
    if c.active then startPending c seen else clean c c.status .stopped seen
  | .running =>
    if c.active then startRunning c seen else clean c c.status .stopped seen
  | .other =>
    if c.active then .again else clean c c.status .stopped seen

/-- How a reconciliation goes on after its call succeeded (controller.py:607-756); `new` tells whether a
created object is new. -/
def Run.after (r : Run) (new : Bool) (seen : Seen) : Next :=
  match r.point with
  | .secret => lookPod r.c (r.st.note .secret) seen
  | .pod => withPod r.c (r.st.note .pod) (if new then some .waiting else none) seen
  | .service => lookEndpoints r.c (r.st.note .service) seen
  | .route => lookTcp r.c (r.st.note .route)
  | .routeTcp => conclude r.c { r.st.note .routeTcp with phase := some .running }
  | .delPod p => cleanSecret r.c r.st p seen
  | .delSecret p => conclude r.c (r.st.ended p seen.now)
  | .scale => conclude r.c r.st
  | .patch => .done

/-- The object a call creates (controller.py:923-1028). -/
def Point.creates : Point → Option Res
  | .secret => some .secret
  | .pod => some .pod
  | .service => some .service
  | .route => some .route
  | .routeTcp => some .routeTcp
  | _ => none

/-- The object a call deletes (controller.py:896, 903). -/
def Point.deletes : Point → Option Res
  | .delPod _ => some .pod
  | .delSecret _ => some .secret
  | _ => none

/-- Everything about one cluster (controller.py:379-443). -/
structure Loop where
  /-- the versions of the cluster object and the objects that exist -/
  server : Server
  /-- how many versions the informer is behind -/
  lag : Nat
  /-- the state of the scheduler pod, if it exists -/
  podState : ContainerState
  /-- what the pod informer has in its cache, and what it has still to show, in order; `none` if the pod
  does not exist -/
  podSeen : Option ContainerState
  podNews : List (Option ContainerState)
  /-- the same of the endpoints: whether there are any and all are ready -/
  readySeen : Bool
  readyNews : List Bool
  /-- in the queue -/
  queued : Bool
  /-- waiting for a backoff -/
  timer : Bool
  run : Option Run
  /-- in `stopped_clusters` -/
  stopped : Bool
  /-- whether the scheduler pod ever ended by itself or was deleted by others: not in the code, for the
  properties only -/
  lost : Bool

/-- A new cluster object, which the informer has just shown (controller.py:572-575, backend.py:510-527). -/
def Loop.init : Loop :=
  { server := .init, lag := 0, podState := .waiting, podSeen := none, podNews := []
    readySeen := false, readyNews := [], queued := true, timer := false, run := none, stopped := false
    lost := false }

/-- The version of the cluster object that the informer has (utils.py:78-79). -/
def Loop.cached (s : Loop) : KCluster :=
  ((s.server.latest :: s.server.older)[s.lag]?).getD s.server.latest

/-- What the informers show now (controller.py:672, 689-690, 730). -/
def Loop.seen (s : Loop) (now : Nat) : Seen := ⟨s.podSeen, s.readySeen, now⟩

/-- The cluster object changes: a new version, unless nothing is different (controller.py:883-891,
backend.py:416-432). -/
def Loop.version (s : Loop) (c : KCluster) : Loop :=
  if c = s.server.latest then s
  else
    { s with
      server := { s.server with latest := c, older := s.server.latest :: s.server.older }
      lag := s.lag + 1 }

/-- A creation takes effect; if the object exists, nothing changes (controller.py:923-1028). A new pod is
waiting. -/
def Loop.create (s : Loop) (r : Res) : Loop :=
  if s.server.exist r then s
  else if r = .pod then
    { s with
      server := { s.server with exist := setExist s.server.exist .pod true }
      podState := .waiting, podNews := s.podNews ++ [some .waiting] }
  else { s with server := { s.server with exist := setExist s.server.exist r true } }

/-- A deletion takes effect; if the object does not exist, nothing changes (controller.py:893-907). A
deleted pod ends first. -/
def Loop.delete (s : Loop) (r : Res) : Loop :=
  if s.server.exist r then
    if r = .pod then
      { s with
        server := { s.server with exist := setExist s.server.exist .pod false }
        podNews := s.podNews ++ [some .terminated, none] }
    else { s with server := { s.server with exist := setExist s.server.exist r false } }
  else s

/-- The effect of a call on the API server (controller.py:883-1028). -/
def Loop.effect (s : Loop) (r : Run) : Loop :=
  match r.point.creates with
  | some x => s.create x
  | none =>
    match r.point.deletes with
    | some x => s.delete x
    | none => if r.point = .patch then s.version { s.server.latest with status := r.st } else s

/-- Whether a created object is new (controller.py:947-956). -/
def Loop.isNew (s : Loop) (r : Run) : Bool :=
  match r.point.creates with
  | some x => !s.server.exist x
  | none => false

/-- controller.py:586-605 a reconciliation goes on, or ends: after an exception, or if it asks for it,
the cluster is put again after a backoff. -/
def Loop.goOn (s : Loop) : Next → Loop
  | .call r => { s with run := some r }
  | .done => { s with run := none }
  | .again => { s with run := none, timer := true }

/-- Whether a phase is final (controller.py:630). -/
def final (p : Phase) : Bool := decide (p = .stopped ∨ p = .failed)

/-- controller.py:576-592, 607-635: the next reconciliation starts. One of a cluster that ended notes
that it did. -/
def Loop.begin (s : Loop) (now : Nat) : Loop :=
  if s.queued = true ∧ s.run = none then
    Loop.goOn { s with queued := false, stopped := s.stopped || final s.cached.status.phaseOr }
      (start s.cached (s.seen now))
  else s

/-- The next call of the reconciliation is made and answered (controller.py:654-756, 883-1028). -/
def Loop.call (s : Loop) (out : Outcome) (now : Nat) : Loop :=
  match s.run with
  | none => s
  | some r =>
    match out with
    | .ok => (s.effect r).goOn (r.after (s.isNew r) (s.seen now))
    | .lost => (s.effect r).goOn .again
    | .failed => s.goOn .again

/-- The backoff is over (workqueue.py:100-102). -/
def Loop.fire (s : Loop) : Loop := if s.timer then { s with timer := false, queued := true } else s

/-- utils.py:88-135, controller.py:572-575: the informer shows the cluster object, perhaps skipping
versions. -/
def Loop.seeCluster (s : Loop) (n : Nat) : Loop := { s with lag := s.lag - n, queued := true }

/-- Whether a change of the scheduler pod puts the cluster in the queue (controller.py:510-515, 550-551;
a relisting calls back for the deletion of pods in the cache only, utils.py:90-106). -/
def wakes (old new : Option ContainerState) : Bool :=
  match new with
  | some .running => true
  | some .terminated => true
  | none => old.isSome
  | _ => false

/-- utils.py:88-135, controller.py:503-515, 543-551: the informer shows the scheduler pod, perhaps
skipping changes. -/
def Loop.seePod (s : Loop) (n : Nat) : Loop :=
  let new := (s.podNews.take n).getLast?.getD s.podSeen
  { s with
    podSeen := new, podNews := s.podNews.drop n
    queued := s.queued || (wakes s.podSeen new && !s.stopped) }

/-- utils.py:88-135, controller.py:558-570: the informer shows the endpoints. -/
def Loop.seeReady (s : Loop) (n : Nat) : Loop :=
  let new := (s.readyNews.take n).getLast?.getD s.readySeen
  { s with
    readySeen := new, readyNews := s.readyNews.drop n
    queued := s.queued || (new && !s.stopped) }

/-- backend.py:416-432: a user stops the cluster. -/
def Loop.stop (s : Loop) : Loop := s.version { s.server.latest with active := false }

/-- Kubernetes changes the state of the scheduler pod (controller.py:50-61, 1184). -/
def Loop.podTurns (s : Loop) (x : ContainerState) : Loop :=
  if s.server.exist .pod = true ∧ s.podState ≠ .terminated then
    { s with
      podState := x, podNews := s.podNews ++ [some x], lost := s.lost || decide (x = .terminated) }
  else s

/-- Kubernetes changes the endpoints of the scheduler's service (controller.py:558-560). -/
def Loop.endpointsTurn (s : Loop) (b : Bool) : Loop := { s with readyNews := s.readyNews ++ [b] }

/-- An object is deleted by others than the controller (controller.py:543-551). -/
def Loop.vanish (s : Loop) (r : Res) : Loop :=
  if s.server.exist r then
    { s with
      server := { s.server with exist := setExist s.server.exist r false }
      podNews := if r = .pod then s.podNews ++ [none] else s.podNews
      lost := s.lost || decide (r = .pod) }
  else s

/-- What the pod informer's cache is after it has shown all changes (utils.py:137-150). -/
def Loop.podLatest (s : Loop) : Option ContainerState := s.podNews.getLast?.getD s.podSeen

/-- What is known of the endpoints after all changes were shown (utils.py:137-150). -/
def Loop.readyLatest (s : Loop) : Bool := s.readyNews.getLast?.getD s.readySeen

/-- controller.py:401-443, utils.py:137-175: the controller is killed and started again: the informers
list what there is before anything is reconciled, and the cluster is put in the queue. -/
def Loop.restart (s : Loop) : Loop :=
  { s with
    lag := 0, podSeen := s.podLatest, podNews := [], readySeen := s.readyLatest, readyNews := []
    queued := true, timer := false, run := none, stopped := false }

/-- What can happen (controller.py:379-605). -/
inductive Op where
  | stop
  | seeCluster (n : Nat)
  | seePod (n : Nat)
  | seeReady (n : Nat)
  | podTurns (x : ContainerState)
  | endpointsTurn (b : Bool)
  | vanish (r : Res)
  | begin (now : Nat)
  | call (out : Outcome) (now : Nat)
  | fire
  | restart
  deriving DecidableEq

/-- One step (controller.py:379-605). -/
def Loop.step (s : Loop) : Op → Loop
  | .stop => s.stop
  | .seeCluster n => s.seeCluster n
  | .seePod n => s.seePod n
  | .seeReady n => s.seeReady n
  | .podTurns x => s.podTurns x
  | .endpointsTurn b => s.endpointsTurn b
  | .vanish r => s.vanish r
  | .begin now => s.begin now
  | .call out now => s.call out now
  | .fire => s.fire
  | .restart => s.restart

end Verif.KubeLoop
