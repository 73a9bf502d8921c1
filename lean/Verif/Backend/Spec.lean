import Verif.Backend.Model
/-
Specification vocabulary for the database-backed cluster manager. It speaks about the log of calls
into the concrete backend (newest first), about what a client sees, and about queue flags; not about
how the gateway computes anything.
-/
namespace Verif.Backend

/-- The object is finished: its stored status is `STOPPED` or `FAILED`. -/
def JobStatus.finished (s : JobStatus) : Prop := s = .stopped ∨ s = .failed

/-- The cluster was asked to stop: by a user, a timeout, a failure or a shutdown. -/
def StopRequested (c : Cluster) : Prop := c.row.target.finished

/-- `do_stop_cluster` was called, and `do_start_cluster` was not called since. -/
def StoppedSinceStart (log : List Ext) : Prop :=
  ∃ later earlier, log = later ++ .stopCluster :: earlier ∧ .startCluster ∉ later

/-- Two calls of `do_start_cluster` without a crash of the gateway between them. -/
def DoubleStart (log : List Ext) : Prop :=
  ∃ l3 l2 l1, log = l3 ++ .startCluster :: (l2 ++ .startCluster :: l1) ∧ .crash ∉ l2

/-- `do_start_worker` was called for `w`, and after its last call neither `do_stop_worker` for `w`
nor, for backends that stop all workers with the cluster, `do_stop_cluster`. -/
def Leaked (bulk : Bool) (w : Nat) (log : List Ext) : Prop :=
  ∃ later earlier, log = later ++ .startWorker w :: earlier ∧ .startWorker w ∉ later ∧
    .stopWorker w ∉ later ∧ (bulk = true → .stopCluster ∉ later)

/-- The gateway died during the last call of `do_start_worker` for `w`. -/
def StartInterrupted (w : Nat) (log : List Ext) : Prop :=
  ∃ l2 l1 earlier, log = l2 ++ .crash :: (l1 ++ .startWorker w :: earlier) ∧
    .startWorker w ∉ l2 ∧ .startWorker w ∉ l1 ∧ .startedWorker w ∉ l1

/-- How far a status is: pending, running, stopping, then stopped or failed. -/
def ClusterStatus.rank : ClusterStatus → Nat
  | .pending => 0 | .running => 1 | .stopping => 2 | .stopped => 3 | .failed => 3

/-- The client sees status `y` after status `x`: nothing moves backward and the two last statuses are
final. -/
def ClusterStatus.Forward (x y : ClusterStatus) : Prop :=
  x.rank ≤ y.rank ∧ (x = .stopped ∨ x = .failed → y = x)

/-- Work for the cluster or one of its unfinished workers is queued or in flight. -/
def Cluster.hasWork (c : Cluster) : Prop :=
  c.vol.pending = true ∨ c.vol.fl ≠ .idle ∨
  ∃ w ∈ c.workers, ¬ w.row.status.finished ∧ (w.vol.pending = true ∨ w.vol.fl ≠ .idle)

/-- Nothing is queued or in flight for the cluster and its workers. -/
def Cluster.Quiescent (c : Cluster) : Prop :=
  c.vol.pending = false ∧ c.vol.fl = .idle ∧ ∀ w ∈ c.workers, w.vol.pending = false ∧ w.vol.fl = .idle

/-- Operations that only carry on work that is queued or in flight. -/
def Op.processing : Op → Bool
  | .getC _ _ | .getW _ _ _ | .endStartC _ _ | .endStopC _ _ | .endStartW _ _ _ | .endStopW _ _ _ => true
  | _ => false

/-- The cluster an operation that carries on work is about. -/
def Op.cluster : Op → Option Nat
  | .getC n _ | .getW n _ _ | .endStartC n _ | .endStopC n _ | .endStartW n _ _ | .endStopW n _ _ => some n
  | _ => none

/-- An operation that can happen in the state. -/
def Op.enabled (cfg : Cfg) (s : State) (o : Op) : Prop := acts cfg s o ≠ []

/-- How many of the operations, in their course from `s` on, do some work for cluster `n`. -/
def workDone (cfg : Cfg) (n : Nat) : State → List Op → Nat
  | _, [] => 0
  | s, o :: ops =>
    (if o.cluster = some n ∧ (acts cfg s o).isEmpty = false then 1 else 0) + workDone cfg n (s.step cfg o) ops

/-- A cluster that a timeout check at time `now` must fail: it was not asked to stop, and was submitted
too long ago or is running and was last heard too long ago (times in ms, timeouts in seconds). -/
def ClusterLate (cfg : Cfg) (now : Int) (c : Cluster) : Prop :=
  ¬ StopRequested c ∧
  (c.row.status = .submitted ∧ (c.row.startTime : Rat) + 1000 * cfg.clusterStartTimeout < now ∨
   c.row.status = .running ∧ ∃ h, c.vol.lastHb = some h ∧ (h : Rat) + 1000 * cfg.heartbeatTimeout < now)

/-- A worker that a timeout check must fail: its cluster is running and not late, and it was submitted
too long ago. -/
def WorkerLate (cfg : Cfg) (now : Int) (c : Cluster) (w : Worker) : Prop :=
  ¬ StopRequested c ∧ c.row.status = .running ∧ ¬ ClusterLate cfg now c ∧ w.row.status = .submitted ∧
  w.row.target = .running ∧ (w.row.startTime : Rat) + 1000 * cfg.workerStartTimeout < now

open Classical in
/-- What a timeout check must leave of a worker: late ones are asked to fail, and queued. -/
noncomputable def afterTimeoutW (cfg : Cfg) (now : Int) (c : Cluster) (w : Worker) : Worker :=
  if WorkerLate cfg now c w then
    { row := { w.row with target := .failed }, vol := { w.vol with pending := true } } else w

open Classical in
/-- What a timeout check must leave of a cluster. -/
noncomputable def afterTimeout (cfg : Cfg) (now : Int) (c : Cluster) : Cluster :=
  if ClusterLate cfg now c then
    { row := { c.row with target := .failed }, vol := { c.vol with pending := true }, workers := c.workers }
  else { c with workers := c.workers.map (afterTimeoutW cfg now c) }

/-- The heartbeat mentions the worker. -/
def Msg.mentions (m : Msg) (x : Nat) : Prop := x ∈ m.active ∨ x ∈ m.closing ∨ x ∈ m.closed

instance (m : Msg) (x : Nat) : Decidable (m.mentions x) := inferInstanceAs (Decidable (_ ∨ _ ∨ _))

/-- A worker that did not start running yet, as far as the gateway and the scheduler know. -/
def Worker.waiting (m : Msg) (w : Worker) : Bool :=
  (w.row.status = .created || w.row.status = .submitted) && !decide (m.mentions w.row.name)

/-- How many starts of workers of `c` an operation reports as failed: a start call that ended with an error,
or workers that were submitted and do not run according to a status check. -/
def startFailures (s : State) (c : Cluster) : Op → Nat
  | .endStartW n w false => if n = c.row.name ∧ ∃ x ∈ c.workers, x.row.name = w ∧ x.vol.fl = .starting then 1 else 0
  | .checkWorkersEnd statuses => match s.chkW with
    | none => 0
    | some asked => ((asked.zip statuses).filter (fun p => decide (p.1.1 = c.row.name) && !p.2)).length
  | _ => 0

/-- The operation is a heartbeat from which the gateway learns that a worker of `c` started. -/
def workerStarted (c : Cluster) : Op → Prop
  | .heartbeat n m _ => n = c.row.name ∧ ¬ StopRequested c ∧
    (∀ w ∈ c.workers, w.row.status = .running ∨ w.row.status = .closing → m.mentions w.row.name) ∧
    ∃ w ∈ c.workers, (w.row.status = .created ∨ w.row.status = .submitted) ∧ (w.row.name ∈ m.active ∨ w.row.name ∈ m.closing)
  | _ => False

end Verif.Backend
