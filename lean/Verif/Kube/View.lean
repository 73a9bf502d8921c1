import Verif.Dict
import Verif.Api.Model
import Verif.Kube.Objects
/-
Model of the gateway's view of the cluster objects on Kubernetes:
dask-gateway-server/dask_gateway_server/backends/kubernetes/backend.py:416-496, 528-624, and of the
secrets the controller makes (controller.py:1202-1224).

The informer is modelled elsewhere (Verif/Kube/Informer.lean): here its cache just changes, and each
change calls `on_cluster_event`. The work queue is modelled in Verif/WorkQueue: here it is the list of
keys that were put (at once or with a delay) and were not taken since; nothing is lost there and no
other task takes from this queue. Timestamps are already parsed.
-/
namespace Verif.Kube

open Verif.Api (Status)

/-- A cluster object as backend.py:571-619 reads it. `created` and `completed` are the results of
`parse_k8s_timestamp` (kubernetes/utils.py:17-19), `none` inside is an exception. Of `spec.config` only
`cluster_max_workers` is kept. -/
structure CR where
  ns : Str
  name : Str
  username : Option Str
  options : Option Json
  maxWorkers : Option Nat
  phase : Option Str
  service : Option Str
  credentials : Option Str
  created : Option Int
  completed : Option (Option Int)
  deriving DecidableEq

/-- A record of the view (models.py:64-130 `Cluster`). -/
structure Rec where
  name : Str
  username : Str
  options : Json
  maxWorkers : Option Nat
  status : Status
  schedulerAddress : Str
  dashboardAddress : Str
  apiAddress : Str
  startTime : Int
  stopTime : Option Int
  tlsCert : List Nat
  tlsKey : List Nat
  token : Str
  deriving DecidableEq

/-- The data of a secret (controller.py:1219-1223, backend.py:617-619); `none` is a missing key. -/
structure Secret where
  crt : Option Str
  pem : Option Str
  apiToken : Option Str
  deriving DecidableEq

/-- controller.py:1205-1224 `make_secret`: the data, for a token and a key pair. The token is hexadecimal
(`uuid.uuid4().hex`), so that its encoding is one byte for each character. -/
def makeSecret (token : Str) (cert key : List Nat) : Secret :=
  { crt := some (Auth.b64encode cert)
    pem := some (Auth.b64encode key)
    apiToken := some (Auth.b64encode (token.map Char.toNat)) }

/-- backend.py:617-619 the credentials in a secret; `none` is an exception. `utf8` is `bytes.decode`. -/
def Secret.read (utf8 : List Nat → Option Str) (s : Secret) : Option (List Nat × List Nat × Str) :=
  match s.crt.bind Auth.b64decode, s.pem.bind Auth.b64decode, (s.apiToken.bind Auth.b64decode).bind utf8 with
  | some c, some k, some t => some (c, k, t)
  | _, _, _ => none

/-- The order of `ClusterStatus` (models.py:34-38). -/
def rank : Status → Nat
  | .pending => 1
  | .running => 2
  | .stopping => 3
  | .stopped => 4
  | .failed => 5

/-- backend.py:577-584 an address of the cluster, empty unless it is running and has a service. -/
def address (o : CR) (status : Status) (scheme port : Str) : Str :=
  match o.service with
  | some s =>
    if status = .running ∧ s ≠ [] then scheme ++ "://".toList ++ s ++ '.' :: o.ns ++ ':' :: port else []
  | none => []

/-- backend.py:587-590 the time of the end; the outer `none` is an exception. -/
def stopTime : Option (Option Int) → Option (Option Int)
  | none => some none
  | some none => none
  | some (some t) => some (some t)

/-- backend.py:573-604 the record for an object, without credentials; `none` is an exception. `{}` is the
default of `options`. -/
def record (upper : Str → Str) (key : Str) (o : CR) : Option Rec :=
  match Status.fromName upper (o.phase.getD "Pending".toList), o.created, stopTime o.completed with
  | some st, some start, some stop =>
    some
      { name := key
        username := o.username.getD []
        options := o.options.getD (.obj [])
        maxWorkers := o.maxWorkers
        status := st
        schedulerAddress := address o st "tls".toList "8786".toList
        dashboardAddress := address o st "http".toList "8787".toList
        apiAddress := address o st "http".toList "8788".toList
        startTime := start
        stopTime := stop
        tlsCert := []
        tlsKey := []
        token := [] }
  | _, _, _ => none

/-- `d.pop(k, None)` (backend.py:558-565). -/
def dpop {β : Type} (d : List (Str × β)) (k : Str) : List (Str × β) := d.filter (fun e => e.1 ≠ k)

/-- backend.py:367-370 the state of the backend. `store` is the informer's cache; `flags` are the
`cluster_waiters`, each flag being a number, `raised` those that were set; `waiting` are the requests that
wait for a flag (backend.py:436-438); `cur` is the call of `sync_cluster` that waits for a secret. -/
structure KubeView where
  store : Str → Option CR
  clusters : List (Str × Rec)
  users : List (Str × List (Str × Rec))
  flags : List (Str × Nat)
  next : Nat
  raised : List Nat
  waiting : List (Str × Nat)
  pending : List Str
  cur : Option (Str × CR × Rec)

/-- backend.py:367-370 `setup`. -/
def KubeView.init : KubeView :=
  { store := fun _ => none, clusters := [], users := [], flags := [], next := 0, raised := [], waiting := [],
    pending := [], cur := none }

/-- `self.cluster_waiters[name]` (backend.py:367, 437, 624): a default dictionary. -/
def KubeView.flag (v : KubeView) (name : Str) : KubeView × Nat :=
  match lookup v.flags name with
  | some f => (v, f)
  | none => ({ v with flags := Dict.set v.flags name v.next, next := v.next + 1 }, v.next)

/-- backend.py:624 `self.cluster_waiters[name].set()`. -/
def KubeView.raise (v : KubeView) (name : Str) : KubeView :=
  { (v.flag name).1 with raised := (v.flag name).2 :: (v.flag name).1.raised }

/-- backend.py:560-564 the entry of a cluster removed from the index of its user. -/
def dropUser (users : List (Str × List (Str × Rec))) (r : Rec) : List (Str × List (Str × Rec)) :=
  match lookup users r.username with
  | none => users
  | some d => if dpop d r.name = [] then dpop users r.username else Dict.set users r.username (dpop d r.name)

/-- backend.py:622 the entry of a cluster put in the index of its user. -/
def addUser (users : List (Str × List (Str × Rec))) (r : Rec) : List (Str × List (Str × Rec)) :=
  Dict.set users r.username (Dict.set ((lookup users r.username).getD []) r.name r)

/-- backend.py:556-567 `sync_cluster` for an object that is gone. -/
def KubeView.remove (v : KubeView) (key : Str) : KubeView :=
  { v with
    clusters := dpop v.clusters key
    users := match lookup v.clusters key with
      | none => v.users
      | some r => dropUser v.users r
    flags := dpop v.flags key
    raised := match lookup v.flags key with
      | none => v.raised
      | some f => f :: v.raised }

/-- backend.py:621-624 the end of `sync_cluster`. -/
def KubeView.publish (v : KubeView) (r : Rec) : KubeView :=
  let v' := { v with clusters := Dict.set v.clusters r.name r, users := addUser v.users r }
  if 2 ≤ rank r.status then v'.raise r.name else v'

/-- What becomes of a call of `sync_cluster` up to its first suspension (backend.py:553-616): it ends, it
raises, or it waits for the secret of this name. -/
inductive Sync where
  | gone
  | raised
  | done (r : Rec)
  | reads (o : CR) (r : Rec)

/-- backend.py:553-616 `sync_cluster` up to the reading of the secret. -/
def KubeView.sync (upper : Str → Str) (v : KubeView) (key : Str) : Sync :=
  match v.store key with
  | none => .gone
  | some o =>
    match record upper key o with
    | none => .raised
    | some r =>
      match lookup v.clusters key with
      | some old =>
        if old.tlsCert ≠ [] then .done { r with tlsCert := old.tlsCert, tlsKey := old.tlsKey, token := old.token }
        else if rank r.status ≤ 2 ∧ o.credentials.getD [] ≠ [] then .reads o r else .done r
      | none => if rank r.status ≤ 2 ∧ o.credentials.getD [] ≠ [] then .reads o r else .done r

/-- What happens, in order (backend.py:434-441, 528-624). -/
inductive VOp where
  /-- an object appears or changes (backend.py:533-535) -/
  | put (o : CR)
  /-- an object disappears (backend.py:533-535) -/
  | del (ns name : Str)
  /-- the loop takes a key and calls `sync_cluster` (backend.py:537-544) -/
  | take (key : Str)
  /-- the reading of the secret ends; the argument is the content of the API server, `none` an exception
  (backend.py:614-619) -/
  | answer (secrets : Str → Str → Option Secret)
  /-- a request waits for a cluster (backend.py:434-438) -/
  | wait (key : Str)

/-- The state when `sync_cluster` ended or was suspended (backend.py:544-551); a failed call puts the key
back with a delay. -/
def KubeView.conclude (v : KubeView) (key : Str) : Sync → KubeView
  | .gone => { v.remove key with pending := v.pending.filter (· ≠ key) }
  | .raised => v
  | .done r => { v.publish r with pending := v.pending.filter (· ≠ key) }
  | .reads o r => { v with cur := some (key, o, r), pending := v.pending.filter (· ≠ key) }

/-- One step. A failed call puts the key back with a delay (backend.py:545-551), a successful one resets
the delay. -/
def KubeView.step (upper : Str → Str) (utf8 : List Nat → Option Str) (v : KubeView) : VOp → KubeView
  | .put o =>
    { v with
      store := fun k => if k = fullName o.ns o.name then some o else v.store k
      pending := fullName o.ns o.name :: v.pending }
  | .del ns name =>
    { v with
      store := fun k => if k = fullName ns name then none else v.store k
      pending := fullName ns name :: v.pending }
  | .take key =>
    if v.cur = none ∧ key ∈ v.pending then v.conclude key (v.sync upper key) else v
  | .answer secrets =>
    match v.cur with
    | none => v
    | some (key, o, r) =>
      match (secrets o.ns (o.credentials.getD [])).bind (Secret.read utf8) with
      | none => { v with cur := none, pending := key :: v.pending }
      | some c => { v.publish { r with tlsCert := c.1, tlsKey := c.2.1, token := c.2.2 } with cur := none }
  | .wait key => { (v.flag key).1 with waiting := (key, (v.flag key).2) :: v.waiting }

/-- A history of the backend (backend.py:537-551). -/
def KubeView.run (upper : Str → Str) (utf8 : List Nat → Option Str) (ops : List VOp) : KubeView :=
  ops.foldl (KubeView.step upper utf8) KubeView.init

/-- backend.py:434-441 `get_cluster`, after its waiting. -/
def KubeView.get (v : KubeView) (name : Str) : Option Rec := lookup v.clusters name

/-- backend.py:444-448 the clusters asked for. -/
def selected (statuses : Option (List Status)) (r : Rec) : Bool :=
  match statuses with
  | none => decide (rank r.status ≤ 2)
  | some l => l.contains r.status

/-- backend.py:443-455 `list_clusters`. -/
def KubeView.list (v : KubeView) (username : Option Str) (statuses : Option (List Status)) : List Rec :=
  match username with
  | none => (v.clusters.map (·.2)).filter (selected statuses)
  | some u =>
    match lookup v.users u with
    | none => []
    | some d => (d.map (·.2)).filter (selected statuses)

/-- The record as the HTTP handlers use it (models.py:64-130). -/
def Rec.toApi (r : Rec) : Api.Cluster :=
  { name := r.name, username := r.username, token := r.token, status := r.status
    active := decide (rank r.status ≤ 2), options := r.options, maxWorkers := r.maxWorkers
    dashboardAddress := r.dashboardAddress, apiAddress := r.apiAddress
    startTime := some r.startTime, stopTime := r.stopTime }

/-- A patch sent to the API server: namespace, name, and the field that is set (backend.py:424-432,
484-492). -/
inductive Patch where
  | active (ns name : Str) (value : Bool)
  | replicas (ns name : Str) (value : Int)
  deriving DecidableEq

/-- `namespace, name = cluster_name.split(".")` (backend.py:424, 459); `none` is `ValueError`. -/
def splitName (key : Str) : Option (Str × Str) :=
  match Api.splitAll '.' key with
  | [ns, name] => some (ns, name)
  | _ => none

/-- What a call of the backend does: the patch it sends, or `none` inside if it sends none; the outer
`none` is an exception (backend.py:416-432). -/
def KubeView.stop (v : KubeView) (key : Str) : Option (Option Patch) :=
  match v.get key with
  | some r => if 4 ≤ rank r.status then some none else (splitName key).map (fun p => some (.active p.1 p.2 false))
  | none => (splitName key).map (fun p => some (.active p.1 p.2 false))

/-- backend.py:457-492 `on_cluster_heartbeat` up to its patch: nothing is sent for an unknown cluster, and
the count is capped by `cluster_max_workers`. -/
def KubeView.heartbeat (v : KubeView) (key : Str) (count : Int) : Option (Option Patch) :=
  match splitName key with
  | none => none
  | some (ns, name) =>
    match v.get key with
    | none => some none
    | some r =>
      match r.maxWorkers with
      | none => some (some (.replicas ns name count))
      | some m => some (some (.replicas ns name (if count > m then m else count)))

/-- backend.py:484-496 the answer to a heartbeat's patch: `code` is the status code of the API server's
answer. `true` means no exception. -/
def patchAnswer (code : Nat) : Bool := decide (code < 300 ∨ code = 404)

end Verif.Kube
