import Verif.Options.Model
import Verif.Dict
/-
Model of parts of the backends that keep their state in a database: memory requests of batch jobs, status
checks, the launcher of batch jobs, and the processes of the local backend:
dask-gateway-server/dask_gateway_server/backends/jobqueue/*.py, yarn.py, local.py and inprocess.py.
-/
namespace Verif.Backends

/-! ### Memory of batch jobs -/

/-- The value of `n / 2 ** k * 2 ** k` for the true division of Python, which rounds to a float:
`float(n)`, as division by a power of two is exact (slurm.py:16, pbs.py:16). Overflow is not
modelled. -/
def roundFloat (n : Nat) : Nat :=
  if n < 2 ^ 53 then n else Options.roundHalfEven n (2 ^ (n.log2 - 52)) * 2 ^ (n.log2 - 52)

/-- `math.ceil(n / unit)` for a unit that is a power of two (slurm.py:16, 18, 20, pbs.py:16, 18, 20). -/
def ceilDiv (n unit : Nat) : Nat := (roundFloat n + (unit - 1)) / unit

/-- slurm.py:13-21 `slurm_format_memory` -/
def slurmFormat (n : Nat) : Str :=
  if n ≥ 10 * 1024 ^ 3 then Nat.toDigits 10 (ceilDiv n (1024 ^ 3)) ++ "G".toList
  else if n ≥ 10 * 1024 ^ 2 then Nat.toDigits 10 (ceilDiv n (1024 ^ 2)) ++ "M".toList
  else if n ≥ 10 * 1024 then Nat.toDigits 10 (ceilDiv n 1024) ++ "K".toList
  else "1K".toList

/-- pbs.py:13-21 `qsub_format_memory` -/
def pbsFormat (n : Nat) : Str :=
  if n ≥ 10 * 1024 ^ 3 then Nat.toDigits 10 (ceilDiv n (1024 ^ 3)) ++ "GB".toList
  else if n ≥ 10 * 1024 ^ 2 then Nat.toDigits 10 (ceilDiv n (1024 ^ 2)) ++ "MB".toList
  else if n ≥ 10 * 1024 then Nat.toDigits 10 (ceilDiv n 1024) ++ "kB".toList
  else Nat.toDigits 10 n ++ "B".toList

/-! ### Status checks -/

/-- A cluster or worker of a batch system: its name and the `job_id` of its state (base.py:202-205). -/
structure Job where
  name : Str
  jobId : Option Str
  deriving DecidableEq

/-- slurm.py:112-117, pbs.py:176-187 `parse_job_states` on the lines of the output already divided into
the id and the state of a job; `active` are the states that count as alive. -/
def parseStates (active : List Str) (rows : List (Str × Str)) : List (Str × Bool) :=
  Dict.ofList (rows.map (fun r => (r.1, active.contains r.2)))

/-- base.py:147-168 `check_jobs`; `query` is the output of the status command for these jobs, `none` if it
fails. -/
def checkJobs (query : List Str → Option (List (Str × Str))) (active : List Str) (ids : List Str) :
    Option (List (Str × Bool)) :=
  if ids = [] then some [] else (query ids).map (parseStates active)

/-- base.py:201-205 the jobs of the objects by name -/
def idMap (objs : List Job) : List (Str × Str) :=
  objs.foldl (fun m x => match x.jobId with | some j => Dict.set m x.name j | none => m) []

/-- base.py:200-207 `_do_check` -/
def jobCheck (query : List Str → Option (List (Str × Str))) (active : List Str) (objs : List Job) :
    Option (List Bool) :=
  (checkJobs query active ((idMap objs).map (·.2))).map (fun states =>
    objs.map (fun x =>
      match lookup (idMap objs) x.name with
      | some j => (lookup states j).getD false
      | none => false))

/-- local.py:278-283, 298-299 the check of the local backend: `running` tells which processes exist. -/
def localCheck (running : Nat → Bool) (pids : List (Option Nat)) : List Bool :=
  pids.map (fun p => match p with | some pid => running pid | none => false)

/-- inprocess.py:29-35 the check of the backend within the process; `closed` gives for a name whether its
scheduler or worker has the status `closed`, and `none` for an unknown one. The code has
`not x.status != Status.closed`. -/
def inprocessCheck (closed : Str → Option Bool) (names : List Str) : List Bool :=
  names.map (fun n => match closed n with | some c => !(!c) | none => false)

/-- A worker on YARN: its name, its cluster and the `container_id` of its state (yarn.py:262-286). -/
structure YWorker where
  name : Str
  cluster : Str
  container : Option Str
  deriving DecidableEq

/-- yarn.py:263-265 the workers by cluster -/
def grouped (workers : List YWorker) : List (Str × List YWorker) :=
  workers.foldl (fun g w => Dict.set g w.cluster ((lookup g w.cluster).getD [] ++ [w])) []

/-- yarn.py:271-285 the results for the workers of a cluster, given the active containers (`none` if they
cannot be got). -/
def groupResults (containers : Option (List Str)) (workers : List YWorker) : List (Str × Bool) :=
  match containers with
  | some l => workers.map (fun w => (w.name, match w.container with | some c => l.contains c | none => false))
  | none => workers.map (fun w => (w.name, false))

/-- yarn.py:267-285 the loop over the clusters, which leaves in `workers` the workers of the last one.
`apps` gives the active containers of a cluster, and outer `none` where `_get_app_client` raises. -/
def yarnLoop (apps : Str → Option (Option (List Str))) :
    List (Str × List YWorker) → List (Str × Bool) → List YWorker → Option (List (Str × Bool) × List YWorker)
  | [], results, workers => some (results, workers)
  | (cluster, ws) :: g, results, _ =>
    match apps cluster with
    | none => none
    | some containers => yarnLoop apps g (Dict.update results (groupResults containers ws)) ws

/-- yarn.py:262-286 `do_check_workers`; `none` if it raises. -/
def yarnCheck (apps : Str → Option (Option (List Str))) (workers : List YWorker) : Option (List Bool) :=
  (yarnLoop apps (grouped workers) [] workers).map (fun r =>
    r.2.map (fun w => (lookup r.1 w.name).getD false))

/-- yarn.py:226-237 `do_check_clusters`, on the `app_id` of the clusters; `report` tells whether an
application is alive, `none` if it cannot be got. `none` is that the check raises, as it does in
db_base.py:1096-1100 also where `False` is returned instead of a list. -/
def yarnCheckClusters (report : Str → Option Bool) : List (Option Str) → Option (List Bool)
  | [] => some []
  | none :: _ => none
  | some a :: l =>
    match report a with
    | none => none
    | some ok => (yarnCheckClusters report l).map (fun r => ok :: r)

/-- db_base.py:1096-1104, 1129-1138 the objects that a check fails -/
def failing {α : Type} (objs : List α) (statuses : List Bool) : List α :=
  ((objs.zip statuses).filter (fun p => !p.2)).map (·.1)

/-! ### The launcher of batch jobs -/

/-- A job of a cluster: whether its staging directory exists, and whether the batch system still has
it (jobqueue/base.py:77-81, 138-145). -/
structure Staged where
  dir : Bool
  job : Bool
  deriving DecidableEq

/-- What happens on one attempt to stop it: whether the directory can be removed, and whether the command
to cancel works (launcher.py:55-67, jobqueue/base.py:138-145). -/
structure Attempt where
  removable : Bool
  cancels : Bool
  deriving DecidableEq

/-- launcher.py:55-67 `stop` with a staging directory, and base.py:138-145 `stop_job`: the state after it
and whether it went well. Without a directory the launcher prints nothing, which the server cannot
parse (base.py:109). -/
def stopCluster (s : Staged) (a : Attempt) : Staged × Bool :=
  if s.dir = false then (s, false)
  else if a.removable = false then (s, false)
  else ({ dir := false, job := if a.cancels then false else s.job }, a.cancels)

/-- base.py:195-198 and launcher.py:67: the stop of a worker, which has no staging directory. -/
def stopWorker (job : Bool) (a : Attempt) : Bool × Bool := (if a.cancels then false else job, a.cancels)

/-! ### Local processes -/

/-- local.py:44-54 `wait_is_shutdown`, in tenths of a second: whether it saw the process gone, and when it
returns. `fuel` bounds the number of rounds, which need no more than the timeout. -/
def waitShutdown (alive : Nat → Bool) : Nat → Nat → Nat → Int → Bool × Nat
  | 0, now, _, _ => (false, now)
  | fuel + 1, now, pause, timeout =>
    if timeout < 0 then (false, now)
    else if alive now = false then (true, now)
    else waitShutdown alive fuel (now + pause) (2 * pause) (timeout - pause)

/-- The signals (local.py:241-245). -/
inductive Sig where
  | int | term | kill
  deriving DecidableEq

/-- local.py:240-251 `stop_process` from a time on, with the timeouts in tenths of a second: the signals
with their times, and the time at which it is done. `alive` tells when the process exists. -/
def stopProcess (alive : Nat → Bool) : List (Sig × Nat) → Nat → List (Sig × Nat) × Nat
  | [], now => ([], now)
  | (sig, timeout) :: l, now =>
    match waitShutdown alive (timeout + 2) now 1 timeout with
    | (true, t) => ([(sig, now)], t)
    | (false, t) => ((sig, now) :: (stopProcess alive l t).1, (stopProcess alive l t).2)

/-- local.py:240-245 -/
def methods (sigint sigterm sigkill : Nat) : List (Sig × Nat) :=
  [(.int, 10 * sigint), (.term, 10 * sigterm), (.kill, 10 * sigkill)]

/-- `os.path.join` of two paths (local.py:164, 197, 200, 204-205). -/
def pathJoin (a b : Str) : Str :=
  if b.head? = some '/' then b
  else if a = [] ∨ a.getLast? = some '/' then a ++ b
  else a ++ '/' :: b

/-- local.py:196-206 the directories and the files of the credentials -/
def certsDir (workdir : Str) : Str := pathJoin workdir ".certs".toList
/-- local.py:199-200 -/
def logsDir (workdir : Str) : Str := pathJoin workdir "logs".toList
/-- local.py:204 -/
def certPath (workdir : Str) : Str := pathJoin (certsDir workdir) "dask.crt".toList
/-- local.py:205 -/
def keyPath (workdir : Str) : Str := pathJoin (certsDir workdir) "dask.pem".toList

/-- local.py:170-179 the paths whose owner is to be set. `paths.extend(path)` adds the characters of a
path one by one. -/
def ownedPaths (workdir : Str) : List Str :=
  [workdir, certsDir workdir, logsDir workdir] ++
    (certPath workdir).map (fun c => [c]) ++ (keyPath workdir).map (fun c => [c])

/-- local.py:138-141 `set_file_permissions`: the paths that got the user as owner, and whether it ended
without exception; `exist` tells which paths exist. -/
def setOwners (exist : Str → Bool) : List Str → List Str × Bool
  | [] => ([], true)
  | p :: l => if exist p then (p :: (setOwners exist l).1, (setOwners exist l).2) else ([], false)

end Verif.Backends
