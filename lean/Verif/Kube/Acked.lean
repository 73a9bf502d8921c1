import Verif.Kube.View
import Verif.Kube.Start
/-
Model of requests to stop clusters on Kubernetes, with the objects in Kubernetes, any number of replicas of the gateway
whose informers lag behind, and restarts:
dask-gateway-server/dask_gateway_server/backends/kubernetes/backend.py:355-432 and routes.py:164-177.

The informer of a replica gets the events of the objects in their order, with any delay; that it may skip events when it
has to list the objects anew is not modelled (Verif/Kube/Informer.lean has that).
-/
namespace Verif.Kube

open Verif.Api (Status)

/-- A replica: its view, and the events that its informer has not had yet (backend.py:371-385). -/
structure Replica where
  view : KubeView
  todo : List VOp

/-- The objects by name, with `spec.active`; the names that were given to users, with these; and the replicas
(backend.py:401-432). -/
structure Site where
  objs : List (Str × (CR × Bool))
  names : List (Str × Str)
  reps : Nat → Replica

/-- An empty cluster with new replicas (backend.py:366-370). -/
def Site.init : Site := { objs := [], names := [], reps := fun _ => { view := KubeView.init, todo := [] } }

/-- All informers will be told (backend.py:371-385). -/
def Site.tell (s : Site) (op : VOp) : Site :=
  { s with reps := fun i => { s.reps i with todo := (s.reps i).todo ++ [op] } }

/-- One replica changes (backend.py:371-386). -/
def Site.setRep (s : Site) (i : Nat) (r : Replica) : Site :=
  { s with reps := fun j => if j = i then r else s.reps j }

/-- The phase of an object is one of an ended cluster (backend.py:416-420, 573). -/
def endedCR (upper : Str → Str) (o : CR) : Bool :=
  match Status.fromName upper (o.phase.getD "Pending".toList) with
  | some st => decide (4 ≤ rank st)
  | none => false

/-- What the controller sets in the status of an object (controller.py:607-756, 883-891). -/
structure NewStatus where
  phase : Option Str
  service : Option Str
  credentials : Option Str
  completed : Option (Option Int)

/-- An object with a new status (controller.py:607-756, 883-891). -/
def CR.withStatus (o : CR) (n : NewStatus) : CR :=
  { o with phase := n.phase, service := n.service, credentials := n.credentials, completed := n.completed }

/-- What happens, apart from requests to stop. -/
inductive SiteOp where
  /-- a replica creates a cluster for a user (backend.py:401-414) -/
  | create (c : Ctl) (hex ns username : Str) (options : Json) (maxWorkers : Option Nat) (now : Int)
  /-- the controller changes the status (controller.py:607-756, 883-891) -/
  | status (key : Str) (n : NewStatus)
  /-- an object is removed (controller.py:477-501) -/
  | remove (ns name : Str)
  /-- an informer gets its next event (backend.py:533-535) -/
  | deliver (i : Nat)
  /-- a replica works on its view or has a request wait (backend.py:434-441, 537-624) -/
  | take (i : Nat) (key : Str)
  | answer (i : Nat) (secrets : Str → Str → Option Secret)
  | wait (i : Nat) (key : Str)
  /-- a replica is replaced: it serves requests as soon as its informer has listed the objects (backend.py:366-386) -/
  | restart (i : Nat)

/-- The view of a replica takes a step (backend.py:434-441, 537-624). -/
def Site.viewStep (upper : Str → Str) (utf8 : List Nat → Option Str) (s : Site) (i : Nat) (op : VOp) : Site :=
  s.setRep i { s.reps i with view := (s.reps i).view.step upper utf8 op }

/-- The view of a replica that has just listed the objects (backend.py:366-386). -/
def listed (upper : Str → Str) (utf8 : List Nat → Option Str) (objs : List (Str × (CR × Bool))) : KubeView :=
  (objs.map (fun e => VOp.put e.2.1)).foldl (KubeView.step upper utf8) KubeView.init

/-- A new object with its name and user (backend.py:401-414). -/
def Site.place (s : Site) (name : Str) (o : CR) (username : Str) : Site :=
  { s with objs := Dict.set s.objs name (o, true), names := Dict.set s.names name username }

/-- The creation of an object in a namespace. Names of clusters are random and never repeat, and Kubernetes has no
namespaces with dots (backend.py:401-414, 511). -/
def Site.add (s : Site) (ns : Str) (o : NewCluster) (name username : Str) (now : Int) : Site :=
  if '.' ∈ ns ∨ '.' ∈ o.name ∨ (lookup s.names name).isSome then s
  else (s.place name (o.stored ns now) username).tell (.put (o.stored ns now))

/-- One step; the controller leaves ended clusters as they are (controller.py:628-638, C53). -/
def Site.step (upper : Str → Str) (utf8 : List Nat → Option Str) (s : Site) : SiteOp → Site
  | .create c hex ns username options mx now =>
    s.add (startCluster c hex ns username options mx).1 (startCluster c hex ns username options mx).2.1
      (startCluster c hex ns username options mx).2.2 username now
  | .status key n =>
    match lookup s.objs key with
    | none => s
    | some (o, a) =>
      if endedCR upper o then s
      else ({ s with objs := Dict.set s.objs key (o.withStatus n, a) }).tell (.put (o.withStatus n))
  | .remove ns name => ({ s with objs := dpop s.objs (fullName ns name) }).tell (.del ns name)
  | .deliver i =>
    match (s.reps i).todo with
    | [] => s
    | op :: l => s.setRep i { view := (s.reps i).view.step upper utf8 op, todo := l }
  | .take i key => s.viewStep upper utf8 i (.take key)
  | .answer i secrets => s.viewStep upper utf8 i (.answer secrets)
  | .wait i key => s.viewStep upper utf8 i (.wait key)
  | .restart i => s.setRep i { view := listed upper utf8 s.objs, todo := [] }

/-- The patch of an object: `none` if there is no such object, for which the client library raises (backend.py:424-432). -/
def Site.patch (s : Site) : Patch → Option Site
  | .active ns name value =>
    match lookup s.objs (fullName ns name) with
    | none => none
    | some (o, _) => some (({ s with objs := Dict.set s.objs (fullName ns name) (o, value) }).tell (.put o))
  | .replicas _ _ _ => some s

/-- A request of a user to stop a cluster reaches a replica: the state afterwards, and the code of the response
(routes.py:164-177, backend.py:416-432). -/
def Site.stop (env : Api.Env) (s : Site) (i : Nat) (u : Auth.User) (key : Str) : Site × Nat :=
  let resp := Api.handle env ((s.reps i).view.clusters.map (fun e => e.2.toApi)) { route := .delete key, cached := some u }
  if resp.effects = [] then (s, resp.code)
  else
    match (s.reps i).view.stop key with
    | none => (s, 500)
    | some none => (s, resp.code)
    | some (some p) =>
      match s.patch p with
      | none => (s, 500)
      | some s' => (s', resp.code)

/-- A history with requests to stop (routes.py:164-177). -/
inductive SiteEv where
  | op (o : SiteOp)
  | stop (i : Nat) (u : Auth.User) (key : Str)

/-- One event (routes.py:164-177, backend.py:401-432). -/
def Site.ev (upper : Str → Str) (utf8 : List Nat → Option Str) (env : Api.Env) (s : Site) : SiteEv → Site
  | .op o => s.step upper utf8 o
  | .stop i u key => (s.stop env i u key).1

/-- A history (backend.py:401-432). -/
def Site.run (upper : Str → Str) (utf8 : List Nat → Option Str) (env : Api.Env) (evs : List SiteEv) : Site :=
  evs.foldl (Site.ev upper utf8 env) Site.init

end Verif.Kube
