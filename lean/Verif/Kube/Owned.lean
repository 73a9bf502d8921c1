import Verif.Kube.Objects
/-
Model of who owns the objects that the gateway and the controller create in Kubernetes:
dask-gateway-server/dask_gateway_server/backends/kubernetes/controller.py:823-836, 893-1030 and
backends/kubernetes/backend.py:401-414, 510-527.

Kubernetes is outside the repository. It gives every new object an identity of its own, refuses a second object of the
same kind, namespace and name (409), and its collector removes an object that has owners, once none of its owners is
left in the object's namespace.
-/
namespace Verif.Kube.Owned

/-- The kinds of objects: the cluster itself (backend.py:515), and what the controller makes for it (controller.py:829,
913, 936, 962, 984, 1010). -/
inductive Kind where
  | cluster | secret | pod | service | route | routeTcp
  deriving DecidableEq

/-- An entry of `ownerReferences` (controller.py:829-836, 913-920); `apiVersion` goes with the kind. -/
structure Ref where
  kind : Kind
  name : Str
  uid : Nat
  deriving DecidableEq

/-- An object in Kubernetes; `made` is the name of the cluster it was made for (controller.py:1086, without the
labels that extra configuration may add). -/
structure Res where
  kind : Kind
  ns : Str
  name : Str
  uid : Nat
  made : Str
  owners : List Ref
  deriving DecidableEq

/-- What is in Kubernetes, the next identity, and all that ever was (the objects an informer may still show,
controller.py:608, 672, 730). -/
structure State where
  objs : List Res := []
  fresh : Nat := 0
  seen : List Res := []

/-- `f"dask-scheduler-{cluster_name}"` (controller.py:1198) -/
def schedulerName (name : Str) : Str := "dask-scheduler-".toList ++ name

/-- `ownerReferences` with one object (controller.py:829-836, 913-920, 936-943, 962-969, 984-991, 1010-1017) -/
def refTo (o : Res) : Ref := { kind := o.kind, name := o.name, uid := o.uid }

/-- What happens: the gateway creates a cluster, the controller creates something for a cluster that it has seen (and
with a scheduler that it has seen), anyone deletes an object, or the collector removes one. -/
inductive Op where
  | cluster (ns name : Str)
  | secret (c : Res)
  | scheduler (c : Res)
  | service (c p : Res)
  | route (c p : Res)
  | routeTcp (c p : Res)
  | worker (c p : Res) (suffix : Str)
  | delete (uid : Nat)
  | collect (uid : Nat)

/-- The object that an operation creates, with the identity `uid`: backend.py:510-527, 409-411 and controller.py:909-925,
931-949, 958-975, 980-1000, 1006-1025, 823-836 with 1199-1200. -/
def Op.object (uid : Nat) : Op → Option Res
  | .cluster ns name => some { kind := .cluster, ns, name, uid, made := name, owners := [] }
  | .secret c => some { kind := .secret, ns := c.ns, name := secretName c.name, uid, made := c.name, owners := [refTo c] }
  | .scheduler c =>
    some { kind := .pod, ns := c.ns, name := schedulerName c.name, uid, made := c.name, owners := [refTo c] }
  | .service c p => some { kind := .service, ns := c.ns, name := serviceName c.name, uid, made := c.name, owners := [refTo p] }
  | .route c p => some { kind := .route, ns := c.ns, name := serviceName c.name, uid, made := c.name, owners := [refTo p] }
  | .routeTcp c p =>
    some { kind := .routeTcp, ns := c.ns, name := serviceName c.name, uid, made := c.name, owners := [refTo p] }
  | .worker c p suffix =>
    some { kind := .pod, ns := c.ns, name := "dask-worker-".toList ++ c.name ++ '-' :: suffix, uid, made := c.name,
           owners := [refTo p] }
  | .delete _ => none
  | .collect _ => none

/-- Whether Kubernetes refuses an object because there is one with its name (409; controller.py:926-927, 950-952,
976-977, 1001-1002, 1026-1027). -/
def taken (s : State) (o : Res) : Bool :=
  s.objs.any (fun x => decide (x.kind = o.kind ∧ x.ns = o.ns ∧ x.name = o.name))

/-- Whether an owner is there (Kubernetes; an owner is looked for in the namespace of the object; controller.py:829-836). -/
def present (s : State) (ns : Str) (r : Ref) : Bool :=
  s.objs.any (fun x => decide (x.kind = r.kind ∧ x.ns = ns ∧ x.name = r.name ∧ x.uid = r.uid))

/-- Whether the collector may remove an object (Kubernetes; see controller.py:829-836). -/
def collectable (s : State) (o : Res) : Bool := decide (o.owners ≠ []) && o.owners.all (fun r => !present s o.ns r)

/-- The operations that happen: the controller's arguments are a cluster it has seen, and the pod that it has seen under
the name of the cluster's scheduler, in the cluster's namespace (controller.py:608, 672, 730). Kubernetes ends names that
it generates (controller.py:1196) in letters and digits. -/
def Op.Given (s : State) : Op → Prop
  | .secret c | .scheduler c => c ∈ s.seen ∧ c.kind = .cluster
  | .service c p | .route c p | .routeTcp c p =>
    (c ∈ s.seen ∧ c.kind = .cluster) ∧ p ∈ s.seen ∧ p.kind = .pod ∧ p.ns = c.ns ∧ p.name = schedulerName c.name
  | .worker c p suffix =>
    ((c ∈ s.seen ∧ c.kind = .cluster) ∧ p ∈ s.seen ∧ p.kind = .pod ∧ p.ns = c.ns ∧ p.name = schedulerName c.name) ∧
      '-' ∉ suffix
  | _ => True

/-- One operation on Kubernetes (controller.py:893-1030). -/
def step (s : State) (op : Op) : State :=
  match op.object s.fresh with
  | some o => if taken s o then s else { objs := o :: s.objs, fresh := s.fresh + 1, seen := o :: s.seen }
  | none =>
    match op with
    | .delete uid => { s with objs := s.objs.filter (fun o => decide (o.uid ≠ uid)) }
    | .collect uid => { s with objs := s.objs.filter (fun o => !(decide (o.uid = uid) && collectable s o)) }
    | _ => s

/-- All histories (controller.py:893-1030). -/
inductive Reach : State → Prop where
  | start : Reach {}
  | step {s : State} (h : Reach s) (op : Op) (g : op.Given s) : Reach (step s op)

end Verif.Kube.Owned
