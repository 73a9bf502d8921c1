import Verif.Kube.Pods
/-
Model of the reconciliation of one cluster by the Kubernetes controller:
dask-gateway-server/dask_gateway_server/backends/kubernetes/controller.py:607-756, 883-1028.

The names of the objects of a cluster are functions of the cluster's name (make_secret_name and so on),
so a status only records whether they are noted. Every call to the API server may succeed, fail without
effect, or fail although it took effect; the controller being killed is the same as a call failing,
since all it keeps is rebuilt from the API server.
-/
namespace Verif.Kube

/-- The phase of a cluster (controller.py:628-651); `other` is any other string. -/
inductive Phase where
  | pending
  | running
  | stopped
  | failed
  | other
  deriving DecidableEq

/-- The objects of a cluster (controller.py:893-1028). -/
inductive Res where
  | secret
  | pod
  | service
  | route
  | routeTcp
  deriving DecidableEq

/-- The status of a cluster object (controller.py:625-635, 658-713): the phase if there is one, which
objects are noted, and the completion time. -/
structure KStatus where
  phase : Option Phase
  secret : Bool
  pod : Bool
  service : Bool
  route : Bool
  routeTcp : Bool
  completion : Option Nat
  deriving DecidableEq

/-- Whether an object is noted in a status (controller.py:661, 665, 682, 694, 700, 726, 894, 901). -/
def KStatus.noted (st : KStatus) : Res → Bool
  | .secret => st.secret
  | .pod => st.pod
  | .service => st.service
  | .route => st.route
  | .routeTcp => st.routeTcp

/-- A cluster object: `spec.active` and the status (controller.py:625-638). -/
structure KCluster where
  active : Bool
  status : KStatus
  deriving DecidableEq

/-- The state of the API server: the cluster object's versions, latest first, and which of its objects
exist (controller.py:607-652, 883-1028). -/
structure Server where
  latest : KCluster
  older : List KCluster
  exist : Res → Bool

/-- A call to the API server (controller.py:883-1028), or the scaling of the workers
(controller.py:742-755). -/
inductive ApiCall where
  | create (r : Res)
  | delete (r : Res)
  | patch
  | scale
  deriving DecidableEq

/-- What becomes of a call (controller.py:883-1028). -/
inductive Outcome where
  | ok
  | lost
  | failed
  deriving DecidableEq

/-- Note an object in a status (controller.py:663, 670, 687, 698, 704). -/
def KStatus.note (st : KStatus) : Res → KStatus
  | .secret => { st with secret := true }
  | .pod => { st with pod := true }
  | .service => { st with service := true }
  | .route => { st with route := true }
  | .routeTcp => { st with routeTcp := true }

/-- `status.get("phase", "Pending")` (controller.py:628). -/
def KStatus.phaseOr (st : KStatus) : Phase := st.phase.getD .pending

/-- Set whether an object exists (controller.py:893-1028). -/
def setExist (e : Res → Bool) (r : Res) (b : Bool) : Res → Bool := fun x => if x = r then b else e x

/-- controller.py:923-929, 947-956, 972-978, 996-1004, 1020-1028: create an object if it does not
exist. The result is `none` if the call raises, else whether the object is new. -/
def createIfNotExists (out : ApiCall → Outcome) (r : Res) (e : Res → Bool) : (Res → Bool) × Option Bool :=
  match out (.create r) with
  | .ok => (setExist e r true, some (!e r))
  | .lost => (setExist e r true, none)
  | .failed => (e, none)

/-- controller.py:896-900, 903-907: delete an object; that it does not exist is no failure. The result
is false if the call raises. -/
def deleteIfExists (out : ApiCall → Outcome) (r : Res) (e : Res → Bool) : (Res → Bool) × Bool :=
  match out (.delete r) with
  | .ok => (setExist e r false, true)
  | .lost => (setExist e r false, false)
  | .failed => (e, false)

/-- controller.py:893-907 `cleanup_cluster_resources`. -/
def cleanupResources (out : ApiCall → Outcome) (st : KStatus) (e : Res → Bool) : (Res → Bool) × Bool :=
  let (e1, ok1) := if st.noted .pod then deleteIfExists out .pod e else (e, true)
  if ok1 then
    if st.noted .secret then deleteIfExists out .secret e1 else (e1, true)
  else (e1, false)

/-- controller.py:661-704: create an object that is not noted, and note it. The result is `none` if the
call raises. -/
def ensure (out : ApiCall → Outcome) (r : Res) (st : KStatus) (e : Res → Bool) :
    (Res → Bool) × Option KStatus :=
  if st.noted r then (e, some st)
  else match createIfNotExists out r e with
    | (e1, some _) => (e1, some (st.note r))
    | (e1, none) => (e1, none)

/-- What the informers show when a reconciliation runs: the scheduler pod's container (`none` if the
pod is not there), and whether the endpoints of the service are ready (controller.py:672, 679, 689-690,
730-732). -/
structure Shown where
  pod : Option ContainerState
  ready : Bool
  now : Nat

/-- The status of a cluster that has ended (controller.py:644-645, 712-713, 739-740). -/
def KStatus.ended (st : KStatus) (p : Phase) (now : Nat) : KStatus :=
  { st with phase := some p, completion := some now }

/-- controller.py:707-713, 734-740: clean up and fail. -/
def failCluster (out : ApiCall → Outcome) (sh : Shown) (st : KStatus) (e : Res → Bool) :
    (Res → Bool) × Option KStatus :=
  match cleanupResources out st e with
  | (e1, true) => (e1, some (st.ended .failed sh.now))
  | (e1, false) => (e1, none)

/-- controller.py:681-706: the scheduler runs: its service, and its routes when the service is
ready. -/
def startRoutes (out : ApiCall → Outcome) (sh : Shown) (st : KStatus) (e : Res → Bool) :
    (Res → Bool) × Option KStatus :=
  match ensure out .service st e with
  | (e1, none) => (e1, none)
  | (e1, some st1) =>
    if sh.ready then
      match ensure out .route st1 e1 with
      | (e2, none) => (e2, none)
      | (e2, some st2) =>
        match ensure out .routeTcp st2 e2 with
        | (e3, none) => (e3, none)
        | (e3, some st3) => (e3, some { st3 with phase := some .running })
    else (e1, some st1)

/-- controller.py:665-672: create the scheduler pod if it is not noted, else look it up. A new pod is
waiting; one that existed already is treated as unknown yet. The result is `none` if the call raises. -/
def schedulerPod (out : ApiCall → Outcome) (sh : Shown) (st : KStatus) (e : Res → Bool) :
    (Res → Bool) × Option (KStatus × Option ContainerState) :=
  if st.noted .pod then (e, some (st, sh.pod))
  else match createIfNotExists out .pod e with
    | (e1, some new) => (e1, some (st.note .pod, if new then some .waiting else none))
    | (e1, none) => (e1, none)

/-- controller.py:654-715 `handle_pending_cluster`. -/
def handlePending (out : ApiCall → Outcome) (sh : Shown) (st0 : KStatus) (e : Res → Bool) :
    (Res → Bool) × Option KStatus :=
  match ensure out .secret { st0 with phase := some st0.phaseOr } e with
  | (e1, none) => (e1, none)
  | (e1, some st1) =>
    match schedulerPod out sh st1 e1 with
    | (e2, none) => (e2, none)
    | (e2, some (st2, pod)) =>
      match pod with
      | some .running => startRoutes out sh st2 e2
      | some .terminated => failCluster out sh st2 e2
      | _ => (e2, some st2)

/-- controller.py:717-756 `handle_running_cluster`; the scaling is in `Verif.Kube.Scaling`. -/
def handleRunning (out : ApiCall → Outcome) (sh : Shown) (st : KStatus) (e : Res → Bool) :
    (Res → Bool) × Option KStatus :=
  let state := if st.noted .pod then sh.pod.getD .terminated else .terminated
  match state with
  | .terminated => failCluster out sh st e
  | .running => if out .scale = .ok then (e, some st) else (e, none)
  | _ => (e, some st)

/-- controller.py:621-652 `handle_cluster`: the new status if there is one to write. An unknown phase
raises (the result of `handle_cluster` is `None`, which cannot be unpacked). -/
def handleCluster (out : ApiCall → Outcome) (sh : Shown) (c : KCluster) (e : Res → Bool) :
    (Res → Bool) × Option KStatus :=
  match c.status.phaseOr with
  | .stopped => (e, none)
  | .failed => (e, none)
  | p =>
    if c.active then
      match p with
      | .pending => handlePending out sh c.status e
      | .running => handleRunning out sh c.status e
      | _ => (e, none)
    else
      match cleanupResources out c.status e with
      | (e1, true) => (e1, some (c.status.ended .stopped sh.now))
      | (e1, false) => (e1, none)

/-- The API server gets a new status: a new version of the cluster object (controller.py:883-891). -/
def Server.write (s : Server) (st : KStatus) : Server :=
  { s with latest := { s.latest with status := st }, older := s.latest :: s.older }

/-- controller.py:607-619 `reconcile_cluster` on the version of the cluster object that the informer
has. -/
def Server.reconcile (s : Server) (out : ApiCall → Outcome) (sh : Shown) (cached : KCluster) : Server :=
  match handleCluster out sh cached s.exist with
  | (e, none) => { s with exist := e }
  | (e, some st) =>
    if st = cached.status then { s with exist := e }
    else match out .patch with
      | .failed => { s with exist := e }
      | _ => ({ s with exist := e } : Server).write st

/-- backend.py:416-432 `stop_cluster`: set `spec.active` to false. -/
def Server.stop (s : Server) : Server :=
  { s with latest := { s.latest with active := false }, older := s.latest :: s.older }

/-- A new cluster object (backend.py:510-527). -/
def Server.init : Server :=
  { latest :=
      { active := true
        status :=
          { phase := none, secret := false, pod := false, service := false, route := false
            routeTcp := false, completion := none } }
    older := [], exist := fun _ => false }

end Verif.Kube
