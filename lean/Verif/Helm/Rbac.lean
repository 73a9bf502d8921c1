import Verif.Helm.Model
/-
Model of the accounts and permissions that the Helm chart sets up, and of the requests to Kubernetes that the gateway and the
controller make. `H` stands for `resources/helm/dask-gateway/templates`, `K` for
`dask-gateway-server/dask_gateway_server/backends/kubernetes`.

Kubernetes is modelled by its contract: pods act as the service account that they name, or as `default`; what an account may do
is what the roles say that are bound to it. Helm is modelled by its contract too: it does not install a release one of whose
objects belongs to another release. Of the objects, only those that have no namespace matter here.
-/
namespace Verif.Helm.Rbac

/-- A rule of a role (H/gateway/rbac.yaml:17-23) -/
structure Rule where
  groups : List Str
  resources : List Str
  verbs : List Str

/-- A `ClusterRole` (H/gateway/rbac.yaml:10-23) -/
structure Role where
  name : Str
  rules : List Rule

/-- A `ClusterRoleBinding` with one subject (H/gateway/rbac.yaml:25-38): the account's namespace and name. -/
structure Binding where
  name : Str
  account : Str × Str
  role : Str

/-- The values that matter (values.yaml: `rbac`, `controller.enabled`, `traefik.installTraefik`); no account is the empty text. -/
structure Values where
  enabled : Bool := true
  gatewayAccount : Str := []
  controllerAccount : Str := []
  traefikAccount : Str := []
  controllerEnabled : Bool := true
  installTraefik : Bool := true

/-- H/gateway/rbac.yaml:17-23 -/
def gatewayRules : List Rule :=
  [{ groups := ["".toList], resources := ["secrets".toList], verbs := ["get".toList] },
   { groups := ["gateway.dask.org".toList], resources := ["daskclusters".toList], verbs := ["*".toList] }]

/-- H/controller/rbac.yaml:17-32 -/
def controllerRules : List Rule :=
  [{ groups := ["gateway.dask.org".toList], resources := ["daskclusters".toList, "daskclusters/status".toList], verbs := ["*".toList] },
   { groups := ["traefik.io".toList], resources := ["ingressroutes".toList, "ingressroutetcps".toList],
     verbs := ["get".toList, "create".toList, "delete".toList] },
   { groups := ["".toList], resources := ["pods".toList],
     verbs := ["get".toList, "list".toList, "watch".toList, "create".toList, "delete".toList] },
   { groups := ["".toList], resources := ["endpoints".toList], verbs := ["get".toList, "list".toList, "watch".toList] },
   { groups := ["".toList], resources := ["secrets".toList, "services".toList], verbs := ["create".toList, "delete".toList] }]

/-- H/traefik/rbac.yaml:20-65 -/
def traefikRules : List Rule :=
  [{ groups := ["".toList], resources := ["nodes".toList, "secrets".toList, "services".toList],
     verbs := ["get".toList, "list".toList, "watch".toList] },
   { groups := ["discovery.k8s.io".toList], resources := ["endpointslices".toList], verbs := ["list".toList, "watch".toList] },
   { groups := ["extensions".toList, "networking.k8s.io".toList], resources := ["ingressclasses".toList],
     verbs := ["get".toList, "list".toList, "watch".toList] },
   { groups := ["traefik.io".toList],
     resources := ["ingressroutes".toList, "ingressroutetcps".toList, "ingressrouteudps".toList, "middlewares".toList,
       "middlewaretcps".toList, "serverstransports".toList, "serverstransporttcps".toList, "tlsoptions".toList, "tlsstores".toList,
       "traefikservices".toList],
     verbs := ["get".toList, "list".toList, "watch".toList] }]

/-- H/_helpers.tpl:66-68 `dask-gateway.traefikName` -/
def traefikName (r : Release) : Str := name63 ("traefik-".toList ++ r.fullname)

/-- Whether the chart makes the account of the gateway (H/gateway/rbac.yaml:1-2). -/
def Values.makesGateway (v : Values) : Bool := v.enabled && decide (v.gatewayAccount = [])

/-- Whether it makes that of the controller (H/controller/rbac.yaml:1-3). -/
def Values.makesController (v : Values) : Bool := v.controllerEnabled && (v.enabled && decide (v.controllerAccount = []))

/-- Whether it makes that of Traefik (H/traefik/rbac.yaml:1-3). -/
def Values.makesTraefik (v : Values) : Bool := v.enabled && (v.installTraefik && decide (v.traefikAccount = []))

/-- The roles of a release (H/gateway/rbac.yaml:10-23, H/controller/rbac.yaml:11-32, H/traefik/rbac.yaml:9-65) -/
def roles (r : Release) (v : Values) : List Role :=
  (if v.makesGateway then [{ name := r.apiName, rules := gatewayRules }] else [])
  ++ (if v.makesController then [{ name := r.controllerName, rules := controllerRules }] else [])
  ++ (if v.makesTraefik then [{ name := traefikName r, rules := traefikRules }] else [])

/-- The bindings of a release (H/gateway/rbac.yaml:25-38, H/controller/rbac.yaml:34-47, H/traefik/rbac.yaml:67-78) -/
def bindings (r : Release) (v : Values) : List Binding :=
  (if v.makesGateway then [{ name := r.apiName, account := (r.ns, r.apiName), role := r.apiName }] else [])
  ++ (if v.makesController then [{ name := r.controllerName, account := (r.ns, r.controllerName), role := r.controllerName }] else [])
  ++ (if v.makesTraefik then [{ name := traefikName r, account := (r.ns, traefikName r), role := traefikName r }] else [])

/-- The account that pods act as: `serviceAccountName` of a deployment, or what Kubernetes takes without one
(H/gateway/deployment.yaml:26-32, H/controller/deployment.yaml:27-33). -/
def podAccount (r : Release) (v : Values) (given own : Str) : Str × Str :=
  (r.ns, if v.enabled then (if given = [] then own else given) else "default".toList)

/-- H/gateway/deployment.yaml:26-32 -/
def gatewayPod (r : Release) (v : Values) : Str × Str := podAccount r v v.gatewayAccount r.apiName

/-- H/controller/deployment.yaml:27-33 -/
def controllerPod (r : Release) (v : Values) : Str × Str := podAccount r v v.controllerAccount r.controllerName

/-- The releases that are installed (resources/helm/dask-gateway), with their values. -/
abbrev Cluster := List (Release × Values)

/-- The roles of all releases (H/gateway/rbac.yaml:10-23) -/
def allRoles (s : Cluster) : List Role := s.flatMap (fun e => roles e.1 e.2)

/-- The bindings of all releases (H/gateway/rbac.yaml:25-38) -/
def allBindings (s : Cluster) : List Binding := s.flatMap (fun e => bindings e.1 e.2)

/-- `helm install`: refused if there is a role of the same name (H/gateway/rbac.yaml:13, H/controller/rbac.yaml:14,
H/traefik/rbac.yaml:12; these have no namespace). -/
def install (s : Cluster) (r : Release) (v : Values) : Option Cluster :=
  if (roles r v).any (fun x => (allRoles s).any (fun y => decide (x.name = y.name))) then none else some ((r, v) :: s)

/-- All clusters that can come about by installing and uninstalling releases (resources/helm/dask-gateway). -/
inductive Reach : Cluster → Prop where
  | start : Reach []
  | install {s t : Cluster} (h : Reach s) (r : Release) (v : Values) (e : install s r v = some t) : Reach t
  | uninstall {s : Cluster} (h : Reach s) (x : Release × Values) : Reach (s.filter (fun y => decide (y.1 ≠ x.1)))

/-- A request to Kubernetes: what for (K/controller.py:470-1030). The namespace is `none` for all namespaces. -/
structure Call where
  verb : Str
  group : Str
  resource : Str
  ns : Option Str
  deriving DecidableEq

/-- What the gateway does in Kubernetes (K/backend.py:371-384, 409-411, 424-431, 485-493, 614-616, K/utils.py:149, 171). -/
inductive GatewayOp where
  | list
  | watch
  | start (ns : Str)
  | stop (ns : Str)
  | scale (ns : Str)
  | credentials (ns : Str)

/-- The requests of the gateway (K/backend.py:371-384, 409-411, 424-431, 485-493, 614-616). -/
def GatewayOp.call : GatewayOp → Call
  | .list => { verb := "list".toList, group := "gateway.dask.org".toList, resource := "daskclusters".toList, ns := none }
  | .watch => { verb := "watch".toList, group := "gateway.dask.org".toList, resource := "daskclusters".toList, ns := none }
  | .start ns => { verb := "create".toList, group := "gateway.dask.org".toList, resource := "daskclusters".toList, ns := some ns }
  | .stop ns | .scale ns =>
    { verb := "patch".toList, group := "gateway.dask.org".toList, resource := "daskclusters".toList, ns := some ns }
  | .credentials ns => { verb := "get".toList, group := "".toList, resource := "secrets".toList, ns := some ns }

/-- What the controller watches (K/controller.py:387-418). -/
inductive Watched where
  | clusters
  | pods
  | endpoints

/-- The group and the name of what is watched (K/controller.py:391-396, 405, 414). -/
def Watched.resource : Watched → Str × Str
  | .clusters => ("gateway.dask.org".toList, "daskclusters".toList)
  | .pods => ("".toList, "pods".toList)
  | .endpoints => ("".toList, "endpoints".toList)

/-- What the controller does in Kubernetes (K/controller.py:387-418, 478-480, 760, 786, 884-891, 897, 904, 924, 948, 973,
997-999, 1021-1023). -/
inductive ControllerOp where
  | list (w : Watched)
  | watch (w : Watched)
  | expire (ns : Str)
  | status (ns : Str)
  | createPod (ns : Str)
  | deletePod (ns : Str)
  | createSecret (ns : Str)
  | deleteSecret (ns : Str)
  | createService (ns : Str)
  | createRoute (ns : Str)
  | createRouteTcp (ns : Str)

/-- The requests of the controller (K/controller.py:387-418, 478-480, 760, 786, 884-891, 897, 904, 924, 948, 973, 997-999,
1021-1023). -/
def ControllerOp.call : ControllerOp → Call
  | .list w => { verb := "list".toList, group := w.resource.1, resource := w.resource.2, ns := none }
  | .watch w => { verb := "watch".toList, group := w.resource.1, resource := w.resource.2, ns := none }
  | .expire ns => { verb := "delete".toList, group := "gateway.dask.org".toList, resource := "daskclusters".toList, ns := some ns }
  | .status ns => { verb := "patch".toList, group := "gateway.dask.org".toList, resource := "daskclusters/status".toList, ns := some ns }
  | .createPod ns => { verb := "create".toList, group := "".toList, resource := "pods".toList, ns := some ns }
  | .deletePod ns => { verb := "delete".toList, group := "".toList, resource := "pods".toList, ns := some ns }
  | .createSecret ns => { verb := "create".toList, group := "".toList, resource := "secrets".toList, ns := some ns }
  | .deleteSecret ns => { verb := "delete".toList, group := "".toList, resource := "secrets".toList, ns := some ns }
  | .createService ns => { verb := "create".toList, group := "".toList, resource := "services".toList, ns := some ns }
  | .createRoute ns => { verb := "create".toList, group := "traefik.io".toList, resource := "ingressroutes".toList, ns := some ns }
  | .createRouteTcp ns => { verb := "create".toList, group := "traefik.io".toList, resource := "ingressroutetcps".toList, ns := some ns }

end Verif.Helm.Rbac
