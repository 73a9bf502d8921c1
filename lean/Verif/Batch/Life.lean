import Verif.Json
import Verif.Backends.Model
/-
Model of what a cluster leaves behind on a batch system and with the local backend, from its start to its end:
`dask-gateway-server/dask_gateway_server/backends/jobqueue/base.py` (`start_job` 116-136, `do_start_cluster` 170-181,
`do_stop_cluster` 183-187), `jobqueue/launcher.py` (`start` 39-52, `stop` 55-67), `backends/local.py`
(`setup_working_directory` 162-186, `cleanup_working_directory` 188-194, `do_start_cluster` 257-267, `do_stop_cluster`
269-276) and `backends/db_base.py` (`reconcile_cluster` 1192-1214, `_cluster_to_submitted` 1251-1272,
`_cluster_to_stopped` 1288-1309).

What a launcher still does after the gateway stopped waiting for it counts as done at that moment.
-/
namespace Verif.Batch
open Verif.Backends (Attempt)

/-- Where the cluster stands in the database (db_base.py:1192-1214). -/
inductive Phase where
  /-- To be started, and started again after a restart of the gateway. -/
  | created
  /-- The start is over, well or not. -/
  | submitted
  | ended
deriving DecidableEq, Repr

/-- How the gateway learns of the result (db_base.py:1253-1272). -/
inductive Answer where
  | received
  /-- An exception or the timeout (1262-1272). -/
  | lost
  /-- The gateway's process ends before the result is stored (1257). -/
  | died
deriving DecidableEq, Repr

/-- What happens during a start on a batch system. -/
structure StartEv where
  /-- The user is known (base.py:79). -/
  user : Bool
  /-- `makedirs` works (launcher.py:42). -/
  mkdir : Bool
  /-- The number of files that can be written (launcher.py:43-45). -/
  files : Nat
  /-- The id of the job, if the batch system takes it (base.py:126-136). -/
  accept : Option Str
  answer : Answer
deriving DecidableEq, Repr

/-- The cluster on the batch system (launcher.py:39-67) and in the database (db_base.py:1251-1309). -/
structure Life where
  /-- The files in the staging directory, if there is one. -/
  dir : Option (List (Str × Str))
  /-- The scheduler jobs that the batch system has. -/
  jobs : List Str
  phase : Phase
  /-- The job of the stored state, which then also has the staging directory (base.py:181). -/
  saved : Option Str
deriving DecidableEq, Repr

/-- base.py:173-176 the files -/
def credentials (cert key : Str) : List (Str × Str) := [("dask.pem".toList, key), ("dask.crt".toList, cert)]

/-- db_base.py:1262-1272 after a start that did not go well; a gateway whose process ended does not get there. -/
def Life.failed (s : Life) (a : Answer) : Life :=
  { s with phase := match a with | .died => .created | _ => .submitted }

/-- db_base.py:1251-1272, base.py:170-181, launcher.py:39-52: a start. -/
def Life.start (cert key : Str) (s : Life) (e : StartEv) : Life :=
  if s.phase ≠ .created then s
  else if e.user = false then s.failed e.answer                                             -- base.py:79
  else if s.dir.isSome ∨ e.mkdir = false then s.failed e.answer                             -- launcher.py:42
  else if e.files < 2 then
    ({ s with dir := some ((credentials cert key).take e.files) } : Life).failed e.answer   -- launcher.py:43-51
  else
    match e.accept with
    | none => ({ s with dir := some (credentials cert key) } : Life).failed e.answer        -- base.py:126-135
    | some id =>
      let t : Life := { s with dir := some (credentials cert key), jobs := id :: s.jobs }
      match e.answer with
      | .received => { t with saved := some id, phase := .submitted }                       -- base.py:181, 1257-1258
      | a => t.failed a

/-- base.py:183-187 `do_stop_cluster`, launcher.py:55-67 `stop` -/
def Life.release (s : Life) (a : Attempt) : Life :=
  match s.saved with
  | none => s                                                                               -- base.py:184-185
  | some id =>
    if s.dir = none then s                                                                  -- launcher.py:57-58
    else if a.removable = false then s                                                      -- launcher.py:61-66
    else { s with dir := none, jobs := if a.cancels then s.jobs.erase id else s.jobs }      -- launcher.py:60, 67

/-- db_base.py:1288-1309: a stop. `died`: the gateway's process ends before the end is stored (1307). -/
def Life.stop (s : Life) (a : Attempt) (died : Bool) : Life :=
  if s.phase = .ended then s
  else if died then s.release a
  else { s.release a with phase := .ended }

/-- What happens to a cluster (db_base.py:1192-1214). -/
inductive LifeOp where
  | start (e : StartEv)
  | stop (a : Attempt) (died : Bool)
deriving DecidableEq

/-- One event (db_base.py:1192-1214). -/
def Life.step (cert key : Str) (s : Life) : LifeOp → Life
  | .start e => s.start cert key e
  | .stop a died => s.stop a died

/-- A new cluster (db_base.py:1192-1214). -/
def Life.init : Life := { dir := none, jobs := [], phase := .created, saved := none }

/-- A history from the creation on (db_base.py:1192-1214). -/
def Life.run (cert key : Str) (ops : List LifeOp) : Life := ops.foldl (Life.step cert key) Life.init

/-! ### The local backend -/

/-- How far a start with the local backend gets (local.py:162-186, 257-267). -/
inductive Reach where
  /-- `makedirs` fails (local.py:170-172). -/
  | nothing
  /-- The directories are there and some of the files written, then an exception: while writing (local.py:175-179) or
  when setting the owners (181). -/
  | directory (files : Nat)
  /-- The directory is stored (259), and starting the process fails (261-266). -/
  | stored
  /-- The process runs (267). -/
  | process (pid : Nat)
deriving DecidableEq, Repr

/-- A cluster of the local backend (local.py:257-276). -/
structure Local where
  dir : Option (List (Str × Str))
  procs : List Nat
  phase : Phase
  /-- The stored state: the directory is known, and the process (local.py:259, 267). -/
  savedDir : Bool
  savedPid : Option Nat
deriving DecidableEq, Repr

/-- local.py:175-179 the files -/
def localFiles (cert key : Str) : List (Str × Str) := [("dask.crt".toList, cert), ("dask.pem".toList, key)]

/-- db_base.py:1251-1272, local.py:257-267: a start. An existing directory is used (local.py:172), but not existing
files (175-177). -/
def Local.start (cert key : Str) (s : Local) (r : Reach) : Local :=
  if s.phase ≠ .created then s
  else if s.dir.isSome then { s with phase := .submitted }
  else
    match r with
    | .nothing => { s with phase := .submitted }
    | .directory n => { s with phase := .submitted, dir := some ((localFiles cert key).take n) }
    | .stored => { s with phase := .submitted, dir := some (localFiles cert key), savedDir := true }
    | .process pid =>
      { dir := some (localFiles cert key), procs := pid :: s.procs, phase := .submitted, savedDir := true,
        savedPid := some pid }

/-- db_base.py:1288-1309, local.py:269-276: a stop; `ends`: the process ends at one of the signals (240-251),
`removable`: the directory can be removed. -/
def Local.stop (s : Local) (ends removable : Bool) : Local :=
  if s.phase = .ended then s
  else
    { s with
      phase := .ended,
      procs := match s.savedPid with | some pid => if ends then s.procs.erase pid else s.procs | none => s.procs,
      dir := if s.savedDir && removable then none else s.dir }

end Verif.Batch
