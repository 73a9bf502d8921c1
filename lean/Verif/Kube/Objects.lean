import Verif.Kube.Merge
/-
Model of the objects that the Kubernetes controller creates for a cluster:
dask-gateway-server/dask_gateway_server/backends/kubernetes/controller.py:64-71, 1066-1305.

Newly built lists and dictionaries all have the identity 0, which matters to none of the results.
-/
namespace Verif.Kube

/-- The settings of the controller that its objects depend on (controller.py:178-185, 256-268, backend.py:299-331). -/
structure Ctl where
  apiUrl : Str
  instanceName : Str
  commonLabels : List (Str × Str)
  commonAnnotations : List (Str × Str)
  proxyPrefix : Str

/-- What the pods of one kind are made from: controller.py:1098-1114 for workers, 1116-1134 for
schedulers. Commands, numbers of cores and amounts of memory are given as the strings they become. -/
structure PodConfig where
  environment : List (Str × Str)
  image : Str
  pullPolicy : Str
  pullSecrets : List Obj
  args : List Str
  cpuRequest : Str
  cpuLimit : Str
  memRequest : Str
  memLimit : Str
  extraPod : List (Str × Obj)
  extraContainer : List (Str × Obj)
  annotations : List (Str × Str)
  labels : List (Str × Str)

/-- A newly built dictionary (controller.py:1128-1187). -/
def obj (l : List (Str × Obj)) : Obj := .dict 0 l

/-- A newly built list (controller.py:1128-1187). -/
def arr (l : List Obj) : Obj := .list 0 l

/-- A dictionary of strings (controller.py:1180). -/
def strs (l : List (Str × Str)) : Obj := obj (l.map (fun e => (e.1, .str e.2)))

/-- `f"{namespace}.{cluster_name}"` (controller.py:1071) -/
def fullName (ns name : Str) : Str := ns ++ '.' :: name

/-- controller.py:1067-1079 the variables of `get_env` -/
def envDict (c : Ctl) (ns name : Str) (environment : List (Str × Str)) : List (Str × Str) :=
  Dict.update environment
    [("DASK_GATEWAY_API_URL".toList, c.apiUrl),
     ("DASK_GATEWAY_CLUSTER_NAME".toList, fullName ns name),
     ("DASK_GATEWAY_API_TOKEN".toList, "/etc/dask-credentials/api-token".toList),
     ("DASK_DISTRIBUTED__COMM__TLS__CA_FILE".toList, "/etc/dask-credentials/dask.crt".toList),
     ("DASK_DISTRIBUTED__COMM__TLS__SCHEDULER__CERT".toList, "/etc/dask-credentials/dask.crt".toList),
     ("DASK_DISTRIBUTED__COMM__TLS__SCHEDULER__KEY".toList, "/etc/dask-credentials/dask.pem".toList),
     ("DASK_DISTRIBUTED__COMM__TLS__WORKER__CERT".toList, "/etc/dask-credentials/dask.crt".toList),
     ("DASK_DISTRIBUTED__COMM__TLS__WORKER__KEY".toList, "/etc/dask-credentials/dask.pem".toList)]

/-- controller.py:1080 an entry of the list of variables -/
def envEntry (e : Str × Str) : Obj := obj [("name".toList, .str e.1), ("value".toList, .str e.2)]

/-- controller.py:1104-1109 the variable with the name of the worker -/
def workerNameEntry : Obj :=
  obj [("name".toList, .str "DASK_GATEWAY_WORKER_NAME".toList),
    ("valueFrom".toList, obj [("fieldRef".toList, obj [("fieldPath".toList, .str "metadata.name".toList)])])]

/-- controller.py:1066-1080, 1095-1109 the list of variables -/
def envList (c : Ctl) (ns name : Str) (p : PodConfig) (worker : Bool) : List Obj :=
  (envDict c ns name p.environment).map envEntry ++ (if worker then [workerNameEntry] else [])

/-- controller.py:1098, 1116 `container_name` -/
def component (worker : Bool) : Str := if worker then "dask-worker".toList else "dask-scheduler".toList

/-- controller.py:1082-1092 `get_labels` with a component -/
def getLabels (c : Ctl) (name comp : Str) : List (Str × Str) :=
  Dict.set
    (Dict.update c.commonLabels
      [("gateway.dask.org/instance".toList, c.instanceName), ("gateway.dask.org/cluster".toList, name)])
    "app.kubernetes.io/component".toList comp

/-- controller.py:1202-1203 `make_secret_name` -/
def secretName (name : Str) : Str := "dask-credentials-".toList ++ name

/-- controller.py:1128-1134 the probe of schedulers -/
def probes (worker : Bool) : List (Str × Obj) :=
  if worker then []
  else [("readinessProbe".toList, obj
    [("httpGet".toList, obj [("port".toList, .str "8788".toList), ("path".toList, .str "/api/health".toList)]),
     ("periodSeconds".toList, .str "5".toList), ("failureThreshold".toList, .str "3".toList)])]

/-- controller.py:1141-1166 `container` before the extra configuration; the numbers of ports are given as
strings. -/
def container (c : Ctl) (ns name : Str) (p : PodConfig) (worker : Bool) : List (Str × Obj) :=
  [("name".toList, .str (component worker)),
   ("image".toList, .str p.image),
   ("args".toList, arr (p.args.map .str)),
   ("env".toList, arr (envList c ns name p worker)),
   ("resources".toList, obj
     [("requests".toList, strs [("cpu".toList, p.cpuRequest), ("memory".toList, p.memRequest)]),
      ("limits".toList, strs [("cpu".toList, p.cpuLimit), ("memory".toList, p.memLimit)])]),
   ("volumeMounts".toList, arr [obj
     [("name".toList, .str "dask-credentials".toList), ("mountPath".toList, .str "/etc/dask-credentials/".toList),
      ("readOnly".toList, .bool true)]]),
   ("ports".toList, arr
     [strs [("name".toList, "scheduler".toList), ("containerPort".toList, "8786".toList)],
      strs [("name".toList, "dashboard".toList), ("containerPort".toList, "8787".toList)],
      strs [("name".toList, "api".toList), ("containerPort".toList, "8788".toList)]])]
  ++ (if p.pullPolicy = [] then [] else [("imagePullPolicy".toList, .str p.pullPolicy)])
  ++ probes worker

/-- controller.py:1168-1169, 1192-1193 `merge_json_objects` where there is something to merge -/
def withExtra (base extra : List (Str × Obj)) : Obj :=
  if extra = [] then obj base else (mergeDict 0 base extra 1).val

/-- controller.py:1136-1139, 1181-1190 the `spec` of a pod before the extra configuration -/
def podSpec (c : Ctl) (ns name : Str) (p : PodConfig) (worker : Bool) : List (Str × Obj) :=
  [("containers".toList, arr [withExtra (container c ns name p worker) p.extraContainer]),
   ("volumes".toList, arr [obj [("name".toList, .str "dask-credentials".toList),
     ("secret".toList, strs [("secretName".toList, secretName name)])]]),
   ("restartPolicy".toList, .str (if worker then "OnFailure".toList else "Never".toList)),
   ("automountServiceAccountToken".toList, .bool false)]
  ++ (if p.pullSecrets = [] then [] else [("imagePullSecrets".toList, arr p.pullSecrets)])

/-- controller.py:1174-1175 the labels of a pod -/
def podLabels (c : Ctl) (name : Str) (p : PodConfig) (worker : Bool) : List (Str × Str) :=
  Dict.update (getLabels c name (component worker)) p.labels

/-- controller.py:1094-1200 `make_pod` -/
def makePod (c : Ctl) (ns name : Str) (p : PodConfig) (worker : Bool) : Obj :=
  obj
    [("apiVersion".toList, .str "v1".toList),
     ("kind".toList, .str "Pod".toList),
     ("metadata".toList, obj
       [("labels".toList, strs (podLabels c name p worker)),
        ("annotations".toList, strs (Dict.update c.commonAnnotations p.annotations)),
        (if worker then ("generateName".toList, .str ("dask-worker-".toList ++ name ++ "-".toList))
         else ("name".toList, .str ("dask-scheduler-".toList ++ name)))]),
     ("spec".toList, withExtra (podSpec c ns name p worker) p.extraPod)]

/-- controller.py:64-71 `get_cluster_key` from the namespace and the labels of an object; `none` for the
`KeyError`. -/
def clusterKey (ns : Str) (labels : List (Str × Str)) : Option Str :=
  (lookup labels "gateway.dask.org/cluster".toList).map (fun n => fullName ns n)

/-- controller.py:1226-1227 `make_service_name` -/
def serviceName (name : Str) : Str := "dask-".toList ++ name

/-- controller.py:1238-1242 the selector of the service of a cluster -/
def selector (c : Ctl) (name : Str) : List (Str × Str) :=
  [("gateway.dask.org/cluster".toList, name), ("gateway.dask.org/instance".toList, c.instanceName),
   ("app.kubernetes.io/component".toList, "dask-scheduler".toList)]

/-- controller.py:1252, 1266-1273 the rule of the route for HTTP: the prefix of paths, and the name and
namespace of the service that they lead to. -/
def webRoute (c : Ctl) (ns name : Str) : Str × Str × Str :=
  (c.proxyPrefix ++ "/clusters/".toList ++ fullName ns name ++ "/".toList, serviceName name, ns)

/-- controller.py:1293-1300 the rule of the route for TLS: the name of the server, and the name and namespace
of the service. -/
def tcpRoute (ns name : Str) : Str × Str × Str :=
  ("daskgateway-".toList ++ fullName ns name, serviceName name, ns)

end Verif.Kube
