import Verif.Json
/-
Model of the backend that runs schedulers and workers in the process of the gateway:
`dask-gateway-server/dask_gateway_server/backends/inprocess.py`, as it is called by `backends/db_base.py` (1085-1110, 1251-1308, 1350-1384).
-/
namespace Verif.Inproc

/-- The status of a scheduler or worker object (inprocess.py:33): closed, or any other. -/
inductive Status where
  | running | closed
  deriving DecidableEq

/-- An assignment to a key of a dict, or its removal (inprocess.py:48, 70, 85, 97). -/
def upd {α : Type} (f : Str → α) (k : Str) (v : α) : Str → α := fun x => if x = k then v else f x

/-- The backend (inprocess.py:37-39), the working directories on disk, and what the database knows of them
(inprocess.py:43, 67). -/
structure State where
  schedulers : Str → Option Status
  workers : Str → Option Status
  disk : Str → Bool
  workdir : Str → Bool

/-- inprocess.py:37-39 after the start of the gateway -/
def State.init : State := { schedulers := fun _ => none, workers := fun _ => none, disk := fun _ => false, workdir := fun _ => false }

/-- inprocess.py:29-35 `_check_status`, for one: `x is not None and not x.status != Status.closed`. -/
def okStatus : Option Status → Bool
  | none => false
  | some s => !(s != .closed)

/-- inprocess.py:79-80 `do_check_clusters` -/
def State.checkClusters (s : State) (names : List Str) : List Bool := names.map (fun n => okStatus (s.schedulers n))

/-- inprocess.py:105-106 `do_check_workers` -/
def State.checkWorkers (s : State) (names : List Str) : List Bool := names.map (fun n => okStatus (s.workers n))

/-- How the start of a cluster ends (inprocess.py:41-67): no directory; an exception before the scheduler object is there; while it
starts; or not at all. -/
inductive StartEnd where
  | noDir | noObject | notStarted | started
  deriving DecidableEq

/-- inprocess.py:41-67 `do_start_cluster`. A scheduler that does not start closes itself. -/
def State.startCluster (s : State) (n : Str) : StartEnd → State
  | .noDir => s
  | .noObject => { s with disk := upd s.disk n true, workdir := upd s.workdir n true }
  | .notStarted =>
    { s with disk := upd s.disk n true, workdir := upd s.workdir n true, schedulers := upd s.schedulers n (some .closed) }
  | .started =>
    { s with disk := upd s.disk n true, workdir := upd s.workdir n true, schedulers := upd s.schedulers n (some .running) }

/-- inprocess.py:69-77 `do_stop_cluster`: the `pop` of a scheduler that is not there raises `KeyError`, which is logged
(db_base.py:1291-1297). `ok` tells that `close` did not raise. -/
def State.stopCluster (s : State) (n : Str) (ok : Bool) : State :=
  match s.schedulers n with
  | none => s
  | some _ =>
    { s with
      schedulers := upd s.schedulers n none
      disk := if ok = true ∧ s.workdir n = true then upd s.disk n false else s.disk }

/-- inprocess.py:82-94 `do_start_worker` -/
def State.startWorker (s : State) (n : Str) : StartEnd → State
  | .noDir => s
  | .noObject => s
  | .notStarted => { s with workers := upd s.workers n (some .closed) }
  | .started => { s with workers := upd s.workers n (some .running) }

/-- inprocess.py:96-103 `do_stop_worker` -/
def State.stopWorker (s : State) (n : Str) : State := { s with workers := upd s.workers n none }

/-- db_base.py:1085-1104: of the clusters that are submitted, and have not sent a heartbeat, those that a check counts as failed. -/
def State.failedClusters (s : State) (submitted : List Str) : List Str :=
  ((submitted.zip (s.checkClusters submitted)).filter (fun x => !x.2)).map (fun x => x.1)

/-- db_base.py:1112-1136: the same for workers. -/
def State.failedWorkers (s : State) (submitted : List Str) : List Str :=
  ((submitted.zip (s.checkWorkers submitted)).filter (fun x => !x.2)).map (fun x => x.1)

/-- The gateway ends, and all schedulers and workers with it, and starts again (inprocess.py:37-39). -/
def State.restart (s : State) : State := { s with schedulers := fun _ => none, workers := fun _ => none }

/-- What may happen, in any order (inprocess.py:37-112); a scheduler or worker may also close on its own. -/
inductive Op where
  | startCluster (n : Str) (e : StartEnd)
  | stopCluster (n : Str) (ok : Bool)
  | startWorker (n : Str) (e : StartEnd)
  | stopWorker (n : Str)
  | closes (n : Str)
  | workerCloses (n : Str)
  | restart
  deriving DecidableEq

/-- A scheduler closes on its own (inprocess.py:33). -/
def State.closes (s : State) (n : Str) : State :=
  match s.schedulers n with
  | none => s
  | some _ => { s with schedulers := upd s.schedulers n (some .closed) }

/-- A worker closes on its own (inprocess.py:33). -/
def State.workerCloses (s : State) (n : Str) : State :=
  match s.workers n with
  | none => s
  | some _ => { s with workers := upd s.workers n (some .closed) }

/-- One of these (inprocess.py:37-106). -/
def State.step (s : State) : Op → State
  | .startCluster n e => s.startCluster n e
  | .stopCluster n ok => s.stopCluster n ok
  | .startWorker n e => s.startWorker n e
  | .stopWorker n => s.stopWorker n
  | .closes n => s.closes n
  | .workerCloses n => s.workerCloses n
  | .restart => s.restart

/-- Any number of them (inprocess.py:37-106). -/
def State.run (s : State) (ops : List Op) : State := ops.foldl State.step s

end Verif.Inproc
