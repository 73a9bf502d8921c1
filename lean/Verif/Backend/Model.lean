/-
Model of the database-backed cluster manager,
`dask-gateway-server/dask_gateway_server/backends/db_base.py`.

The gateway is a single asyncio process. Everything between two points at which it can really be
suspended is one operation (`Op`). The awaits inside a reconciliation that can suspend are the four
calls into the concrete backend, `do_start_cluster`, `do_stop_cluster`, `do_start_worker` and
`do_stop_worker`; each is split into the operation that begins the call and the one that ends it.
The awaits on `proxy.add_route` and `proxy.remove_route` never suspend (proxy/core.py:320-357
contains no `await`), so they are not split.

An operation is a list of micro-actions (`Act`), so that a crash can happen between any two of them,
in particular between two database transactions of one operation. Every `update_*`, `create_*`
and `cleanup_expired` call is one transaction, written through to the database (`State.db`) and to
the in-memory objects (`State.clusters`).

The work queue enters as its specification, proved in `Verif.WorkQueue`: an item is *pending* from a
`put` until it is delivered, *held* from its delivery until `task_done`, and it is delivered only if
it is pending and not held. Here `pending` is a flag of the object, and an object is held across
operations exactly while a call into the concrete backend is in flight for it (`fl`).

Simplifications. Names (uuid4 hex strings) are numbers drawn from a counter: uuid collisions are
not modelled. `options`, `token`, `config` other than `cluster_max_workers`, and the TLS credentials
never change after creation and take no part in any decision of this file; of these only the user name
and `cluster_max_workers` are kept. The JSON `state` yielded by a backend is an opaque number.
Failures of the database itself are not modelled, nor are float roundings.
-/
namespace Verif.Backend

/-- db_base.py:82-88 `JobStatus`. -/
inductive JobStatus where
  | created | submitted | running | closing | stopped | failed
deriving DecidableEq, Repr

/-- db_base.py:83-88: the integer values, which the code compares with `<` and `<=`. -/
def JobStatus.n : JobStatus → Nat
  | .created => 1 | .submitted => 2 | .running => 3 | .closing => 4 | .stopped => 5 | .failed => 6

/-- models.py `ClusterStatus`, what a client sees (models.py:17-38). -/
inductive ClusterStatus where
  | pending | running | stopping | stopped | failed
deriving DecidableEq, Repr

/-- db_base.py:176-193 `Cluster._status_map`; `none` is the `KeyError` of a missing entry. -/
def statusMap : JobStatus → JobStatus → Option ClusterStatus
  | .created, .running => some .pending
  | .created, .closing => some .stopping
  | .created, .stopped => some .stopping
  | .created, .failed => some .stopping
  | .submitted, .running => some .pending
  | .submitted, .closing => some .stopping
  | .submitted, .stopped => some .stopping
  | .submitted, .failed => some .stopping
  | .running, .running => some .running
  | .running, .closing => some .stopping
  | .running, .stopped => some .stopping
  | .running, .failed => some .stopping
  | .closing, .stopped => some .stopping
  | .closing, .failed => some .stopping
  | .stopped, .stopped => some .stopped
  | .failed, .failed => some .failed
  | _, _ => none

/-- Which call into the concrete backend is in flight for an object: none, `do_start_*` or
`do_stop_*` (db_base.py:1255, 1293, 1354, 1378). -/
inductive Flight where
  | idle | starting | stopping
deriving DecidableEq, Repr

/-- db_base.py:291-305, one row of the `workers` table. -/
structure WRow where
  name : Nat
  status : JobStatus
  target : JobStatus
  state : Nat
  startTime : Int
  stopTime : Option Int
  closeExpected : Bool
deriving DecidableEq, Repr

/-- What the process keeps about a worker beside its row: the queue flag and the call in flight
(db_base.py:226-262, 1158-1190). -/
structure WVol where
  pending : Bool
  fl : Flight
deriving DecidableEq, Repr

/-- db_base.py:226-265 `Worker`. -/
structure Worker where
  row : WRow
  vol : WVol
deriving DecidableEq, Repr

/-- db_base.py:270-289, one row of the `clusters` table (`maxWorkers` is
`config["cluster_max_workers"]`). -/
structure CRow where
  name : Nat
  user : String
  status : JobStatus
  target : JobStatus
  count : Int
  state : Nat
  sched : String
  dash : String
  api : String
  maxWorkers : Option Nat
  startTime : Int
  stopTime : Option Int
deriving DecidableEq, Repr

/-- Calls into the concrete backend, as seen by it, and crashes of the gateway (a ghost log, newest
first) (db_base.py:1487-1565). -/
inductive Ext where
  /-- `do_start_cluster` was called -/
  | startCluster
  /-- `do_start_cluster` ended, by returning or raising -/
  | startedCluster
  /-- `do_stop_cluster` was called -/
  | stopCluster
  /-- `do_start_worker` was called for a worker -/
  | startWorker (w : Nat)
  /-- `do_start_worker` ended, by returning or raising -/
  | startedWorker (w : Nat)
  /-- `do_stop_worker` was called for a worker -/
  | stopWorker (w : Nat)
  /-- the gateway died -/
  | crash
deriving DecidableEq, Repr

/-- db_base.py:161-174: what the process keeps about a cluster beside its row - the attributes that
are not columns, the queue flag and the call in flight; the targets of its two routes in the proxy's
route table (proxy/core.py:320-357, keys `("PATH", "/clusters/{name}")` and `("SNI", name)`); and
the ghost log of calls. -/
structure CVol where
  lastHb : Option Int
  failCount : Nat
  added : Bool
  ready : Bool
  shutdown : Bool
  pending : Bool
  fl : Flight
  pathRoute : Option String
  sniRoute : Option String
  log : List Ext
deriving DecidableEq, Repr

/-- db_base.py:91-174 `Cluster`. `workers` is the dict `workers`, in insertion order. -/
structure Cluster where
  row : CRow
  vol : CVol
  workers : List Worker
deriving DecidableEq, Repr

/-- Configuration read by this file: `supports_bulk_shutdown`, the timeouts in seconds, the
worker start failure limit and the age at which finished clusters are purged (db_base.py:565-760). -/
structure Cfg where
  bulk : Bool
  clusterStartTimeout : Rat
  heartbeatTimeout : Rat
  workerStartTimeout : Rat
  failLimit : Nat
  maxAge : Rat

/-- db_base.py:264-265 `Worker.is_active`. -/
def WRow.active (w : WRow) : Bool := decide (w.target.n < JobStatus.stopped.n)

/-- db_base.py:195-196 `Cluster.active_workers`. -/
def Cluster.activeWorkers (c : Cluster) : List Worker := c.workers.filter (fun w => w.row.active)

/-- db_base.py:198-199 `Cluster.is_active`. -/
def CRow.active (c : CRow) : Bool := decide (c.target.n < JobStatus.stopped.n)

/-- db_base.py:201-202 `Cluster.all_workers_at_least`. -/
def Cluster.allAtLeast (c : Cluster) (s : JobStatus) : Bool :=
  c.workers.all (fun w => decide (s.n ≤ w.row.status.n))

/-- db_base.py:204-206 `Cluster.model_status`. -/
def Cluster.modelStatus (c : Cluster) : Option ClusterStatus := statusMap c.row.status c.row.target

/-- db_base.py:1241-1249 `is_cluster_ready_to_close` (Python's `and` binds tighter than `or`). -/
def Cluster.readyToClose (bulk : Bool) (c : Cluster) : Bool :=
  (decide (c.row.status = .closing) && (bulk && c.allAtLeast .closing)) || c.allAtLeast .stopped

/-! ### The database and micro-actions -/

/-- Keyword arguments of `update_cluster` (db_base.py:520-540); `none` is an absent keyword. -/
structure CUpd where
  status : Option JobStatus := none
  target : Option JobStatus := none
  count : Option Int := none
  state : Option Nat := none
  sched : Option String := none
  dash : Option String := none
  api : Option String := none
  stopTime : Option Int := none

/-- db_base.py:523-527: the columns (and attributes) named by the keywords are set. -/
def CUpd.app (u : CUpd) (r : CRow) : CRow :=
  { r with
    status := u.status.getD r.status
    target := u.target.getD r.target
    count := u.count.getD r.count
    state := u.state.getD r.state
    sched := u.sched.getD r.sched
    dash := u.dash.getD r.dash
    api := u.api.getD r.api
    stopTime := match u.stopTime with
      | none => r.stopTime
      | some t => some t }

/-- Keyword arguments of `update_worker` (db_base.py:542-562). -/
structure WUpd where
  status : Option JobStatus := none
  target : Option JobStatus := none
  state : Option Nat := none
  stopTime : Option Int := none
  closeExpected : Option Bool := none

/-- db_base.py:545-549. -/
def WUpd.app (u : WUpd) (r : WRow) : WRow :=
  { r with
    status := u.status.getD r.status
    target := u.target.getD r.target
    state := u.state.getD r.state
    stopTime := match u.stopTime with
      | none => r.stopTime
      | some t => some t
    closeExpected := u.closeExpected.getD r.closeExpected }

/-- Micro-actions. The list of `(object, update)` pairs given to `update_clusters` and
`update_workers` is a function from names to updates (the empty update for objects that are not in
the list) (db_base.py:520-562). -/
inductive Act where
  /-- one transaction of `update_cluster` / `update_clusters` (db_base.py:520-540) -/
  | updC (f : Nat → CUpd)
  /-- one transaction of `update_worker` / `update_workers` (db_base.py:542-562), by cluster and
  worker name -/
  | updW (f : Nat → Nat → WUpd)
  /-- `create_cluster` (db_base.py:454-498) -/
  | newC (row : CRow)
  /-- `create_worker` (db_base.py:500-518) in the named cluster -/
  | newW (n : Nat) (row : WRow)
  /-- the transaction of `cleanup_expired` (db_base.py:387-406); rows of `workers` go with their
  cluster (`ondelete="CASCADE"`, db_base.py:297) -/
  | purge (p : Nat → Bool)
  /-- `queue.put` of clusters (workqueue.py:104) -/
  | putC (f : Nat → Bool)
  /-- `queue.put` of workers -/
  | putW (f : Nat → Nat → Bool)
  /-- change of what is kept in memory only about a cluster -/
  | volC (n : Nat) (f : CVol → CVol)
  /-- change of what is kept in memory only about a worker -/
  | volW (n w : Nat) (f : WVol → WVol)

/-- A cluster's part of the database: its row and the rows of its workers (db_base.py:270-305). -/
abbrev DbEntry := CRow × List WRow

/-- The gateway: the database, the in-memory clusters (`name_to_cluster`, db_base.py:338, in
insertion order; `id_to_cluster` and `username_to_clusters` are indices of it and are changed
together with it), a counter for fresh names, and the snapshots of the two background checks while they await
the concrete backend (db_base.py:1095, 1128). `purged` is a ghost: the clusters that were removed. -/
structure State where
  db : List DbEntry
  clusters : List Cluster
  purged : List Cluster
  next : Nat
  chkC : Option (List Nat)
  chkW : Option (List (Nat × Nat))

/-- db_base.py:500-518: a new in-memory worker; not in the queue yet. -/
def Worker.fresh (r : WRow) : Worker := { row := r, vol := { pending := false, fl := .idle } }

/-- Effect of a micro-action on one worker in memory (db_base.py:542-562). -/
def Act.onWorker (a : Act) (n : Nat) (w : Worker) : Worker :=
  match a with
  | .updW f => { w with row := (f n w.row.name).app w.row }
  | .putW f => if f n w.row.name then { w with vol := { w.vol with pending := true } } else w
  | .volW m x f => if m = n ∧ x = w.row.name then { w with vol := f w.vol } else w
  | _ => w

/-- Effect of a micro-action on one cluster in memory (db_base.py:500-562). -/
def Act.onCluster (a : Act) (c : Cluster) : Cluster :=
  match a with
  | .updC f => { c with row := (f c.row.name).app c.row }
  | .updW _ | .putW _ | .volW _ _ _ => { c with workers := c.workers.map (a.onWorker c.row.name) }
  | .newW n r => if n = c.row.name then { c with workers := c.workers ++ [Worker.fresh r] } else c
  | .putC f => if f c.row.name then { c with vol := { c.vol with pending := true } } else c
  | .volC n f => if n = c.row.name then { c with vol := f c.vol } else c
  | _ => c

/-- Effect of a micro-action on one cluster's rows in the database (db_base.py:500-562). -/
def Act.onEntry (a : Act) (e : DbEntry) : DbEntry :=
  match a with
  | .updC f => ((f e.1.name).app e.1, e.2)
  | .updW f => (e.1, e.2.map (fun r => (f e.1.name r.name).app r))
  | .newW n r => if n = e.1.name then (e.1, e.2 ++ [r]) else e
  | _ => e

/-- db_base.py:161-174: the attributes that `Cluster.__init__` derives, at time `now`; the routes are
those of a proxy that was just set up (proxy/core.py:278), none. The log is a ghost. -/
def CVol.init (status : JobStatus) (now : Int) (log : List Ext) : CVol :=
  { lastHb := if status = .running then some now else none
    failCount := 0
    added := false
    ready := decide (JobStatus.running.n ≤ status.n)
    shutdown := decide (JobStatus.stopped.n ≤ status.n)
    pending := false
    fl := .idle
    pathRoute := none
    sniRoute := none
    log := log }

/-- One micro-action on the gateway (db_base.py:385-562). -/
def State.apply (s : State) (a : Act) : State :=
  match a with
  | .newC r =>
    { s with
      db := s.db ++ [(r, [])]
      clusters := s.clusters ++ [{ row := r, vol := CVol.init r.status r.startTime [], workers := [] }]
      next := s.next + 1 }
  | .newW _ _ =>
    { s with db := s.db.map a.onEntry, clusters := s.clusters.map a.onCluster, next := s.next + 1 }
  | .purge p =>
    { s with
      db := s.db.filter (fun e => !p e.1.name)
      clusters := s.clusters.filter (fun c => !p c.row.name)
      purged := s.purged ++ s.clusters.filter (fun c => p c.row.name) }
  | a => { s with db := s.db.map a.onEntry, clusters := s.clusters.map a.onCluster }

/-- A sequence of micro-actions (db_base.py:385-562). -/
def State.applyAll (s : State) (l : List Act) : State := l.foldl State.apply s

/-- db_base.py:430-431 `DataManager.get_cluster`. -/
def State.find (s : State) (n : Nat) : Option Cluster := s.clusters.find? (fun c => c.row.name = n)

/-- A cluster's worker by name (`cluster.workers[name]`) (db_base.py:226-262, 516). -/
def Cluster.find (c : Cluster) (w : Nat) : Option Worker := c.workers.find? (fun x => x.row.name = w)

/-! ### Actions on one named object -/

/-- `self.db.update_cluster(cluster, ...)` (db_base.py:520-527). -/
def updC1 (n : Nat) (u : CUpd) : Act := .updC (fun m => if m = n then u else {})

/-- `self.db.update_worker(worker, ...)` (db_base.py:542-549). -/
def updW1 (n w : Nat) (u : WUpd) : Act := .updW (fun m x => if m = n ∧ x = w then u else {})

/-- `self.db.update_workers([(w, u) for w in ws])` for workers `ws` of cluster `n`
(db_base.py:551-562). -/
def updWs (n : Nat) (ws : List Nat) (u : WUpd) : Act :=
  .updW (fun m x => if m = n ∧ x ∈ ws then u else {})

/-- `self.queue.put(cluster)` (db_base.py:926, 937). -/
def putC1 (n : Nat) : Act := .putC (fun m => m == n)

/-- `for w in ws: self.queue.put(w)` for workers of cluster `n` (db_base.py:1022-1023). -/
def putWs (n : Nat) (ws : List Nat) : Act := .putW (fun m x => m == n && decide (x ∈ ws))

/-- The names of some workers (db_base.py:985-1015). -/
def names (ws : List Worker) : List Nat := ws.map (fun w => w.row.name)

/-- Append to the ghost log (db_base.py:1487-1565). -/
def CVol.addLog (e : Ext) (v : CVol) : CVol := { v with log := e :: v.log }

/-! ### API calls -/

/-- db_base.py:454-498 `create_cluster`, the row. -/
def newRow (n : Nat) (user : String) (mx : Option Nat) (now : Int) : CRow :=
  { name := n, user := user, status := .created, target := .running, count := 0, state := 0,
    sched := "", dash := "", api := "", maxWorkers := mx, startTime := now, stopTime := none }

/-- db_base.py:922-927 `start_cluster` (after the options were processed, `base.py:94-104`). -/
def startClusterActs (n : Nat) (user : String) (mx : Option Nat) (now : Int) : List Act :=
  [.newC (newRow n user mx now), putC1 n]

/-- db_base.py:929-937 `stop_cluster`, on the cluster found. -/
def stopClusterActs (c : Cluster) (failed : Bool) : List Act :=
  if c.row.target.n ≤ JobStatus.running.n then
    [updC1 c.row.name { target := some (if failed then .failed else .stopped) }, putC1 c.row.name]
  else []

/-- db_base.py:874-882: shutdown with `stop_clusters_on_shutdown`. The waiting for `shutdown` flags
and the closing of the queue (884-898) are not operations on clusters. -/
def shutdownActs (s : State) : List Act :=
  let active := (s.clusters.filter (fun c => c.row.active)).map (fun c => c.row.name)
  [.updC (fun m => if m ∈ active then { target := some .failed } else {}),
   .putC (fun m => decide (m ∈ active))]

/-- The message of a heartbeat (db_base.py:949-958). Worker names the gateway does not know are
allowed. -/
structure Msg where
  api : String
  sched : String
  dash : String
  count : Int
  active : List Nat
  closing : List Nat
  closed : List Nat
deriving DecidableEq, Repr

/-- `len(set(l))` (db_base.py:956, 1012). -/
def setLen (l : List Nat) : Nat := l.eraseDups.length

/-- The branches of the loop over the cluster's workers (db_base.py:989-1009). `unexpected` is the
failed `assert` of line 1008. -/
inductive HbClass where
  | finished | closing | active | closed | submitted | created | unexpected
deriving DecidableEq, Repr

/-- db_base.py:989-1009: which branch a worker takes. -/
def hbClass (m : Msg) (w : WRow) : HbClass :=
  if JobStatus.stopped.n ≤ w.status.n then .finished
  else if w.name ∈ m.closing then .closing
  else if w.name ∈ m.active then .active
  else if w.name ∈ m.closed then .closed
  else if w.status = .submitted then .submitted
  else if w.status = .created then .created
  else .unexpected

/-- The workers that take a branch, in order (db_base.py:985-1009). -/
def hbPick (c : Cluster) (m : Msg) (k : HbClass) : List Worker :=
  c.workers.filter (fun w => hbClass m w.row = k)

/-- db_base.py:969-979: the requested count, clamped to `cluster_max_workers`. -/
def hbCount (mx : Option Nat) (count : Int) : Int :=
  match mx with
  | none => count
  | some k => if count > k then k else count

/-- db_base.py:1011-1015: the pending workers to stop, `created` before `submitted`. -/
def hbToStop (c : Cluster) (m : Msg) : List Worker :=
  let pend := hbPick c m .created ++ hbPick c m .submitted
  let nToStop : Int := (setLen m.active : Int) + pend.length - hbCount c.row.maxWorkers m.count
  if nToStop > 0 then pend.take nToStop.toNat else []

/-- db_base.py:999-1003, 1014-1015: `target_updates`. -/
def hbTarget (c : Cluster) (m : Msg) (x : Nat) : WUpd :=
  if x ∈ names ((hbPick c m .closed).filter (fun w => w.row.closeExpected)) ∨
      x ∈ names (hbToStop c m) then { target := some .stopped }
  else if x ∈ names ((hbPick c m .closed).filter (fun w => !w.row.closeExpected)) then
    { target := some .failed }
  else {}

/-- The workers in `target_updates` (db_base.py:1000-1003, 1014-1015). -/
def hbTargeted (c : Cluster) (m : Msg) : List Nat :=
  names (hbPick c m .closed) ++ names (hbToStop c m)

/-- db_base.py:993-998: `newly_running`. -/
def hbNewlyRunning (c : Cluster) (m : Msg) : List Nat :=
  names ((hbPick c m .closing ++ hbPick c m .active).filter
    (fun w => decide (w.row.status.n < JobStatus.running.n)))

/-- db_base.py:946-953, 981-982: `cluster_update`, `none` when it is the empty dict. -/
def hbClusterUpdate (c : Cluster) (m : Msg) : Option CUpd :=
  let count := hbCount c.row.maxWorkers m.count
  let cnt := if count = c.row.count then none else some count
  if c.row.status = .running then
    if count = c.row.count then none else some { count := cnt }
  else some { api := some m.api, sched := some m.sched, dash := some m.dash, count := cnt }

/-- db_base.py:1008: the `assert` fails. -/
def hbRaises (c : Cluster) (m : Msg) : Bool := !(hbPick c m .unexpected).isEmpty

/-- db_base.py:939-1034 `on_cluster_heartbeat`, on the cluster found. -/
def heartbeatActs (c : Cluster) (m : Msg) (now : Int) : List Act :=
  let n := c.row.name
  if c.row.target.n > JobStatus.running.n then []
  else
    [.volC n (fun v => { v with lastHb := some now })] ++
    if hbRaises c m then []
    else
      (match hbClusterUpdate c m with
        | none => []
        | some u => [updC1 n u, putC1 n]) ++
      [.updW (fun k x => if k = n then hbTarget c m x else {}),
       putWs n (hbTargeted c m)] ++
      (if hbNewlyRunning c m = [] then []
       else [.volC n (fun v => { v with failCount := 0 }),
             updWs n (hbNewlyRunning c m) { status := some .running }]) ++
      [updWs n (names (hbPick c m .closing)) { closeExpected := some true }]

/-! ### Background checks -/

/-- `x < now - t * 1000` for a timestamp `x` in milliseconds and a timeout `t` in seconds
(db_base.py:1052-1054). -/
def before (x now : Int) (t : Rat) : Bool := decide ((x : Rat) < (now : Rat) - t * 1000)

/-- What the timeout check finds about one active cluster (db_base.py:1057-1077). -/
inductive TOut where
  /-- nothing to do for the cluster itself -/
  | keep
  /-- its target becomes `FAILED` -/
  | fail
  /-- `None < cutoff`: `TypeError` (a running cluster that was never heard since it was loaded) -/
  | raise
deriving DecidableEq, Repr

/-- db_base.py:1057-1067. -/
def timeoutCluster (cfg : Cfg) (now : Int) (c : Cluster) : TOut :=
  if !c.row.active then .keep
  else if c.row.status = .submitted then
    if before c.row.startTime now cfg.clusterStartTimeout then .fail else .keep
  else if c.row.status = .running then
    match c.vol.lastHb with
    | none => .raise
    | some h => if before h now cfg.heartbeatTimeout then .fail else .keep
  else .keep

/-- db_base.py:1068-1077: the worker's target becomes `FAILED`. -/
def timeoutWorker (cfg : Cfg) (now : Int) (c : Cluster) (w : WRow) : Bool :=
  c.row.active && decide (c.row.status = .running) && decide (timeoutCluster cfg now c = .keep) &&
    decide (w.status = .submitted) && decide (w.target = .running) &&
    before w.startTime now cfg.workerStartTimeout

/-- db_base.py:1049-1083 raises: then nothing was updated yet, and the loop only logs
(db_base.py:1043-1047). -/
def timeoutsRaise (cfg : Cfg) (now : Int) (s : State) : Bool :=
  s.clusters.any (fun c => timeoutCluster cfg now c = .raise)

/-- db_base.py:1049-1083 `_check_timeouts`. -/
def timeoutActs (cfg : Cfg) (s : State) (now : Int) : List Act :=
  if timeoutsRaise cfg now s then []
  else
    let cs := (s.clusters.filter (fun c => timeoutCluster cfg now c = .fail)).map (fun c => c.row.name)
    let late (k x : Nat) : Bool := s.clusters.any (fun c => c.row.name == k &&
      c.workers.any (fun w => w.row.name == x && timeoutWorker cfg now c w.row))
    [.updC (fun k => if k ∈ cs then { target := some .failed } else {}),
     .putC (fun k => decide (k ∈ cs)),
     .updW (fun k x => if late k x then { target := some .failed } else {}),
     .putW late]

/-- db_base.py:1090-1094: the clusters whose status is asked for. -/
def checkClustersList (s : State) : List Nat :=
  (s.clusters.filter (fun c => c.row.active && decide (c.row.status = .submitted))).map
    (fun c => c.row.name)

/-- db_base.py:1097-1099: `zip(clusters, statuses)`, those that are not ok. -/
def bad {β : Type} (l : List β) (statuses : List Bool) : List β :=
  ((l.zip statuses).filter (fun p => !p.2)).map (fun p => p.1)

/-- db_base.py:1096-1104: `do_check_clusters` returned for the snapshot. -/
def checkClustersActs (snapshot : List Nat) (statuses : List Bool) : List Act :=
  [.updC (fun k => if k ∈ bad snapshot statuses then { target := some .failed } else {}),
   .putC (fun k => decide (k ∈ bad snapshot statuses))]

/-- db_base.py:1117-1127. -/
def checkWorkersList (s : State) : List (Nat × Nat) :=
  (s.clusters.filter (fun c => c.row.active && decide (c.row.status = .running))).flatMap
    (fun c => (c.activeWorkers.filter (fun w => decide (w.row.status = .submitted))).map
      (fun w => (c.row.name, w.row.name)))

/-- db_base.py:1129-1138: `do_check_workers` returned for the snapshot. -/
def checkWorkersActs (snapshot : List (Nat × Nat)) (statuses : List Bool) : List Act :=
  let b := bad snapshot statuses
  [.updW (fun k x => if (k, x) ∈ b then { target := some .failed } else {})] ++
  b.map (fun p => .volC p.1 (fun v => { v with failCount := v.failCount + 1 })) ++
  [.putW (fun k x => decide ((k, x) ∈ b))]

/-- db_base.py:386-390: the clusters that expired. `NULL < cutoff` is not true in SQL. -/
def expired (cfg : Cfg) (now : Int) (r : CRow) : Bool :=
  match r.stopTime with
  | none => false
  | some t => before t now cfg.maxAge

/-- db_base.py:385-408 `cleanup_expired`; the rows are those of the database. -/
def cleanupActs (cfg : Cfg) (s : State) (now : Int) : List Act :=
  let dead := (s.db.filter (fun e => expired cfg now e.1)).map (fun e => e.1.name)
  [.purge (fun k => decide (k ∈ dead))]

/-! ### Reconciliation -/

/-- db_base.py:1276. -/
def closeTarget (bulk : Bool) : JobStatus := if bulk then .closing else .stopped

/-- db_base.py:1274-1286 `_cluster_to_closing`. -/
def toClosingActs (cfg : Cfg) (c : Cluster) : List Act :=
  let n := c.row.name
  let ws := names (c.workers.filter
    (fun w => decide (w.row.target.n < (closeTarget cfg.bulk).n)))
  [updWs n ws { target := some (closeTarget cfg.bulk) }, putWs n ws,
   updC1 n { status := some .closing }] ++
  (if ws = [] then [putC1 n] else []) ++
  [.volC n (fun v => { v with ready := true })]

/-- db_base.py:1299-1309: the end of `_cluster_to_stopped`. -/
def stoppedActs (c : Cluster) (now : Int) : List Act :=
  let n := c.row.name
  let ws := names (c.workers.filter (fun w => decide (w.row.status.n < JobStatus.stopped.n)))
  [updWs n ws { status := some .stopped, target := some .stopped },
   updC1 n { status := some c.row.target, stopTime := some now },
   .volC n (fun v => { v with ready := true, shutdown := true })]

/-- db_base.py:1297-1298: `remove_route` of both routes. -/
def removeRoutes (v : CVol) : CVol := { v with pathRoute := none, sniRoute := none }

/-- db_base.py:1311-1314 `_cluster_to_running`. -/
def toRunningActs (n : Nat) : List Act :=
  [updC1 n { status := some .running }, .volC n (fun v => { v with ready := true })]

/-- db_base.py:1316-1328 `_check_cluster_proxied`. -/
def proxied (sched dash : String) (v : CVol) : CVol :=
  if v.added then v
  else { v with
    pathRoute := if dash = "" then v.pathRoute else some dash
    sniRoute := some sched
    added := true }

/-- db_base.py:504-511: the row of a new worker. -/
def newWRow (x : Nat) (now : Int) : WRow :=
  { name := x, status := .created, target := .running, state := 0, startTime := now,
    stopTime := none, closeExpected := false }

/-- db_base.py:1343-1348: create `k` workers in cluster `n`, named from `next` on. -/
def createWorkers (n next : Nat) (now : Int) : Nat → List Act
  | 0 => []
  | k + 1 => .newW n (newWRow next now) :: putWs n [next] :: createWorkers n (next + 1) now k

/-- db_base.py:1330-1348 `_check_cluster_scale`. -/
def checkScaleActs (cfg : Cfg) (next : Nat) (c : Cluster) (now : Int) : List Act :=
  let n := c.row.name
  if cfg.failLimit ≤ c.vol.failCount then
    [updC1 n { target := some .failed }, putC1 n]
  else
    createWorkers n next now (c.row.count - c.activeWorkers.length).toNat

/-- db_base.py:1192-1214 `reconcile_cluster` up to its first suspension, for a cluster that was just
taken from the queue. -/
def reconcileClusterActs (cfg : Cfg) (next : Nat) (c : Cluster) (now : Int) : List Act :=
  let n := c.row.name
  if JobStatus.stopped.n ≤ c.row.status.n then []
  else if c.row.target = .stopped ∨ c.row.target = .failed then
    if c.row.status = .closing then
      if c.readyToClose cfg.bulk then
        if c.row.status.n > JobStatus.created.n then      -- db_base.py:1290
          [.volC n (fun v => { v.addLog .stopCluster with fl := .stopping })]
        else stoppedActs c now
      else []
    else toClosingActs cfg c
  else if c.row.target = .running then
    if c.row.status = .created then
      [.volC n (fun v => { v.addLog .startCluster with fl := .starting })]  -- db_base.py:1255
    else
      let up := decide (c.row.status = .submitted) && decide (c.row.sched ≠ "")
      (if up then toRunningActs n else []) ++
      (if up || decide (c.row.status = .running) then
        [.volC n (proxied c.row.sched c.row.dash)] ++ checkScaleActs cfg next c now
       else [])
  else []

/-- db_base.py:1257-1272: `do_start_cluster` ended, without (`ok`) or with an exception or timeout;
then `task_done`. -/
def endStartClusterActs (n : Nat) (ok : Bool) : List Act :=
  (if ok then [updC1 n { status := some .submitted }]
   else [updC1 n { status := some .submitted, target := some .failed }, putC1 n]) ++
  [.volC n (fun v => { v.addLog .startedCluster with fl := .idle })]

/-- db_base.py:1293-1309: `do_stop_cluster` ended (an exception is only logged); then `task_done`. -/
def endStopClusterActs (c : Cluster) (now : Int) : List Act :=
  [.volC c.row.name removeRoutes] ++ stoppedActs c now ++
  [.volC c.row.name (fun v => { v with fl := .idle })]

/-- db_base.py:1229-1234: the cluster is queued after one of its workers stopped; evaluated on the
cluster as it is then. -/
def requeueAfterStop (cfg : Cfg) (c : Cluster) (closeExpected : Bool) : Bool :=
  c.readyToClose cfg.bulk || (decide (c.row.target = .running) && !closeExpected)

/-- db_base.py:1383-1384, 1229-1234: the end of `_worker_to_stopped` and what follows. -/
def workerStoppedActs (cfg : Cfg) (c : Cluster) (w : WRow) (now : Int) : List Act :=
  let n := c.row.name
  let a := updW1 n w.name { status := some w.target, stopTime := some now }
  [a] ++ (if requeueAfterStop cfg (a.onCluster c) w.closeExpected then [putC1 n] else [])

/-- db_base.py:1216-1239 `reconcile_worker` up to its first suspension. -/
def reconcileWorkerActs (cfg : Cfg) (c : Cluster) (w : WRow) (now : Int) : List Act :=
  let n := c.row.name
  if JobStatus.stopped.n ≤ w.status.n then []
  else if w.target = .closing then
    let a := updW1 n w.name { status := some .closing }
    let c' := if w.status = .closing then c else a.onCluster c
    (if w.status = .closing then [] else [a]) ++
    (if c'.readyToClose cfg.bulk then [putC1 n] else [])
  else if w.target = .stopped ∨ w.target = .failed then
    if w.status.n > JobStatus.created.n then     -- db_base.py:1376
      [.volW n w.name (fun v => { v with fl := .stopping }), .volC n (CVol.addLog (.stopWorker w.name))]
    else workerStoppedActs cfg c w now
  else if w.status = .created ∧ w.target = .running then
    [.volW n w.name (fun v => { v with fl := .starting }), .volC n (CVol.addLog (.startWorker w.name))]
  else []

/-- db_base.py:1357-1372: `do_start_worker` ended; then `task_done`. -/
def endStartWorkerActs (n w : Nat) (ok : Bool) : List Act :=
  (if ok then [updW1 n w { status := some .submitted }]
   else [updW1 n w { status := some .submitted, target := some .failed },
         .volC n (fun v => { v with failCount := v.failCount + 1 }), putWs n [w]]) ++
  [.volC n (CVol.addLog (.startedWorker w)), .volW n w (fun v => { v with fl := .idle })]

/-- db_base.py:1379-1384, 1229-1234: `do_stop_worker` ended; then `task_done`. -/
def endStopWorkerActs (cfg : Cfg) (c : Cluster) (w : WRow) (now : Int) : List Act :=
  workerStoppedActs cfg c w now ++ [.volW c.row.name w.name (fun v => { v with fl := .idle })]

/-! ### Operations -/

/-- Operations: everything that can run between two suspensions. `now` is the clock (db_base.py:822-1384). -/
inductive Op where
  | startCluster (user : String) (mx : Option Nat) (now : Int)
  | stopCluster (n : Nat) (failed : Bool)
  | heartbeat (n : Nat) (m : Msg) (now : Int)
  /-- graceful shutdown begins, with `stop_clusters_on_shutdown` -/
  | shutdown
  | checkTimeouts (now : Int)
  /-- a status check takes its snapshot and calls `do_check_clusters` -/
  | checkClusters
  /-- `do_check_clusters` returned -/
  | checkClustersEnd (statuses : List Bool)
  | checkWorkers
  | checkWorkersEnd (statuses : List Bool)
  | cleanup (now : Int)
  /-- a reconciler gets a cluster from the queue and runs to its next suspension -/
  | getC (n : Nat) (now : Int)
  /-- a reconciler gets a worker from the queue and runs to its next suspension -/
  | getW (n w : Nat) (now : Int)
  /-- `do_start_cluster` yields a state (db_base.py:1255-1257) -/
  | yieldC (n st : Nat)
  /-- `do_start_worker` yields a state (db_base.py:1354-1356) -/
  | yieldW (n w st : Nat)
  | endStartC (n : Nat) (ok : Bool)
  | endStopC (n : Nat) (now : Int)
  | endStartW (n w : Nat) (ok : Bool)
  | endStopW (n w : Nat) (now : Int)
deriving DecidableEq, Repr

/-- The micro-actions of an operation in state `s`. An operation that cannot happen in `s` (an object
that is not known or not pending, a call that is not in flight) has none (db_base.py:822-1384). -/
def acts (cfg : Cfg) (s : State) : Op → List Act
  | .startCluster user mx now => startClusterActs s.next user mx now
  | .stopCluster n failed => match s.find n with
    | none => []
    | some c => stopClusterActs c failed
  | .heartbeat n m now => match s.find n with
    | none => []
    | some c => heartbeatActs c m now
  | .shutdown => shutdownActs s
  | .checkTimeouts now => timeoutActs cfg s now
  | .checkClusters => []
  | .checkClustersEnd statuses => match s.chkC with
    | none => []
    | some l => checkClustersActs l statuses
  | .checkWorkers => []
  | .checkWorkersEnd statuses => match s.chkW with
    | none => []
    | some l => checkWorkersActs l statuses
  | .cleanup now => cleanupActs cfg s now
  | .getC n now => match s.find n with
    | none => []
    | some c =>
      if c.vol.pending = true ∧ c.vol.fl = .idle then
        .volC n (fun v => { v with pending := false }) :: reconcileClusterActs cfg s.next c now
      else []
  | .getW n w now => match s.find n with
    | none => []
    | some c => match c.find w with
      | none => []
      | some x =>
        if x.vol.pending = true ∧ x.vol.fl = .idle then
          .volW n w (fun v => { v with pending := false }) :: reconcileWorkerActs cfg c x.row now
        else []
  | .yieldC n st => match s.find n with
    | none => []
    | some c => if c.vol.fl = .starting then [updC1 n { state := some st }] else []
  | .yieldW n w st => match s.find n with
    | none => []
    | some c => match c.find w with
      | none => []
      | some x => if x.vol.fl = .starting then [updW1 n w { state := some st }] else []
  | .endStartC n ok => match s.find n with
    | none => []
    | some c => if c.vol.fl = .starting then endStartClusterActs n ok else []
  | .endStopC n now => match s.find n with
    | none => []
    | some c => if c.vol.fl = .stopping then endStopClusterActs c now else []
  | .endStartW n w ok => match s.find n with
    | none => []
    | some c => match c.find w with
      | none => []
      | some x => if x.vol.fl = .starting then endStartWorkerActs n w ok else []
  | .endStopW n w now => match s.find n with
    | none => []
    | some c => match c.find w with
      | none => []
      | some x => if x.vol.fl = .stopping then endStopWorkerActs cfg c x.row now else []

/-- The snapshot of the background checks after an operation (db_base.py:1090-1095, 1117-1128). -/
def chkAfter (s : State) (o : Op) : Option (List Nat) × Option (List (Nat × Nat)) :=
  match o with
  | .checkClusters => (match s.chkC with
    | none => some (checkClustersList s)
    | some l => some l, s.chkW)
  | .checkClustersEnd _ => (none, s.chkW)
  | .checkWorkers => (s.chkC, match s.chkW with
    | none => some (checkWorkersList s)
    | some l => some l)
  | .checkWorkersEnd _ => (s.chkC, none)
  | _ => (s.chkC, s.chkW)

/-- One complete operation (db_base.py:822-1384). -/
def State.step (cfg : Cfg) (s : State) (o : Op) : State :=
  let s' := s.applyAll (acts cfg s o)
  { s' with chkC := (chkAfter s o).1, chkW := (chkAfter s o).2 }

/-- db_base.py:343-383: the objects built from a cluster's rows, at time `now`; the log is a ghost.
db_base.py:853-858: an unfinished cluster is put into the queue, and then its unfinished workers. -/
def load (now : Int) (log : List Ext) (e : DbEntry) : Cluster :=
  let v := CVol.init e.1.status now log
  let unfinished := decide (e.1.status.n < JobStatus.stopped.n)
  { row := e.1
    vol := { v with pending := unfinished }
    workers := e.2.map (fun r =>
      { row := r
        vol := { pending := unfinished && decide (r.status.n < JobStatus.stopped.n), fl := .idle } }) }

/-- The ghost log of a known cluster (db_base.py:1487-1565). -/
def State.logOf (s : State) (n : Nat) : List Ext :=
  match s.find n with
  | none => []
  | some c => c.vol.log

/-- The gateway dies and is started again at time `now` (db_base.py:822-858): everything that is not
in the database is lost. -/
def State.restart (s : State) (now : Int) : State :=
  { s with
    clusters := s.db.map (fun e => load now (.crash :: s.logOf e.1.name) e)
    chkC := none
    chkW := none }

/-- What can happen: an operation, or a crash after the first `k` micro-actions of an operation
followed by a restart at time `now` (db_base.py:822-1384). -/
inductive Ev where
  | op (o : Op)
  | crash (o : Op) (k : Nat) (now : Int)
deriving DecidableEq, Repr

/-- One event (db_base.py:822-1384). -/
def State.ev (cfg : Cfg) (s : State) : Ev → State
  | .op o => s.step cfg o
  | .crash o k now => (s.applyAll ((acts cfg s o).take k)).restart now

/-- A gateway with an empty database (db_base.py:337-339). -/
def State.init : State :=
  { db := [], clusters := [], purged := [], next := 0, chkC := none, chkW := none }

/-- The state after a history (db_base.py:822-1384). -/
def run (cfg : Cfg) (evs : List Ev) : State := evs.foldl (State.ev cfg) State.init

/-! ### Queries -/

/-- Clusters selected by `list_clusters` (db_base.py:433-447); `none` is the `KeyError` that
`model_status` raises when the selection by status meets a cluster without a status. -/
def State.listClusters (s : State) (user : Option String) (statuses : Option (List ClusterStatus)) :
    Option (List Cluster) :=
  let mine := s.clusters.filter (fun c => match user with
    | none => true
    | some u => decide (c.row.user = u))
  match statuses with
  | none => some (mine.filter (fun c => c.row.active))
  | some l =>
    if mine.all (fun c => c.modelStatus.isSome) then
      some (mine.filter (fun c => match c.modelStatus with
        | none => false
        | some x => decide (x ∈ l)))
    else none

/-- db_base.py:907-909 `Backend.list_clusters`: `to_model` needs a status for each cluster
(db_base.py:215). -/
def State.apiList (s : State) (user : Option String) (statuses : Option (List ClusterStatus)) :
    Option (List (Cluster × ClusterStatus)) :=
  (s.listClusters user statuses).bind (fun l => l.mapM (fun c => c.modelStatus.map (fun x => (c, x))))

/-- db_base.py:911-920 `Backend.get_cluster`: outer `none` is the `KeyError`, inner `none` an unknown
cluster. -/
def State.apiGet (s : State) (n : Nat) : Option (Option (Cluster × ClusterStatus)) :=
  match s.find n with
  | none => some none
  | some c => c.modelStatus.map (fun x => some (c, x))

end Verif.Backend
