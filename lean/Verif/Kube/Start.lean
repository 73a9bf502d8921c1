import Verif.Kube.View
import Verif.Batch.Model
/-
Model of how the gateway creates a cluster on Kubernetes, and of which objects its informers watch:
dask-gateway-server/dask_gateway_server/backends/kubernetes/backend.py:36-43, 331-342, 373-386, 401-414, 498-536, and of
the controller's informers (controller.py:361-402).
-/
namespace Verif.Kube

/-- backend.py:36-43 the default namespace: what the file of the service account says, without the white space around
it, or `default`. -/
def defaultNamespace (file : Option Str) : Str :=
  match file with
  | some s => Batch.strip s
  | none => "default".toList

/-- backend.py:498-508 `get_labels` without a component -/
def clusterLabels (c : Ctl) (name : Str) : List (Str × Str) :=
  Dict.update c.commonLabels
    [("gateway.dask.org/instance".toList, c.instanceName), ("gateway.dask.org/cluster".toList, name)]

/-- A cluster object as it is sent (backend.py:513-527); `kind` and `apiVersion` are constants, and of the configuration
only `cluster_max_workers` is kept. -/
structure NewCluster where
  name : Str
  labels : List (Str × Str)
  annotations : List (Str × Str)
  username : Str
  options : Json
  maxWorkers : Option Nat
  deriving DecidableEq

/-- backend.py:510-527 `make_cluster_object`; `hex` is `uuid.uuid4().hex`. -/
def makeCluster (c : Ctl) (hex username : Str) (options : Json) (maxWorkers : Option Nat) : NewCluster :=
  { name := hex, labels := clusterLabels c hex, annotations := c.commonAnnotations, username, options, maxWorkers }

/-- backend.py:401-414 `start_cluster` after the options: the namespace in which the object is created, the object, and
the name that the user gets. -/
def startCluster (c : Ctl) (hex ns username : Str) (options : Json) (maxWorkers : Option Nat) : Str × NewCluster × Str :=
  let o := makeCluster c hex username options maxWorkers
  (ns, o, fullName ns o.name)

/-- The object as the informers show it before the controller adds a status: Kubernetes adds the namespace and the time
(backend.py:568-602). -/
def NewCluster.stored (o : NewCluster) (ns : Str) (now : Int) : CR :=
  { ns, name := o.name, username := some o.username, options := some o.options, maxWorkers := o.maxWorkers, phase := none,
    service := none, credentials := none, created := some now, completed := none }

/-- backend.py:529-532 `get_cluster_name` -/
def CR.key (o : CR) : Str := fullName o.ns o.name

/-- backend.py:340-342 the default of `label_selector`, with which the informers of the gateway (backend.py:373-386) and
of the controller (controller.py:361-402) watch objects. -/
def labelSelector (c : Ctl) : Str := "gateway.dask.org/instance=".toList ++ c.instanceName

/-- controller.py:385-387 the selector for the endpoints of services -/
def endpointsSelector (c : Ctl) : Str := labelSelector c ++ ",app.kubernetes.io/component=dask-scheduler".toList

end Verif.Kube
