import Verif.Backends.Model
/-
Model of the processes of the local backend, over the life of a gateway that may be killed and started again:
`dask-gateway-server/dask_gateway_server/backends/local.py` (27-41, 143-160, 216-299), with the parts of
`backends/db_base.py` that call it (1251-1273, 1287-1308, 1350-1384).

A *job* is the scheduler of a cluster or a worker; jobs are numbers, and so are the ids of processes, which the operating
system gives again once a process has ended. The gateway may send signals to every process. `create_subprocess_exec`
of asyncio kills its process if it is cancelled.
-/
namespace Verif.Local
open Verif.Backends (Sig)

/-- An assignment to a key. (The states of local.py:267, 290 in the database.) -/
def upd {α : Type} (f : Nat → α) (k : Nat) (v : α) : Nat → α := fun x => if x = k then v else f x

/-- A process that runs (local.py:222-229): the job it was started for (`none` for all others on the machine), and whether it got
a SIGKILL, after which it ends at some time. -/
structure Proc where
  owner : Option Nat
  killed : Bool
  deriving DecidableEq

/-- How far the gateway is with a job: `created`; `start_process` was called; the process is there but its id is not in
the database yet (local.py:229-267, 290, db_base.py:1257, 1357); it is, but the status is not (db_base.py:1258, 1358);
`submitted`, for all states up to the end; being stopped (local.py:240-251), with the number of the signal and whether it was
sent; `stopped`. -/
inductive Stat where
  | created
  | starting
  | spawned (pid : Nat)
  | recorded
  | submitted
  | stopping (i : Nat) (sent : Bool)
  | stopped
  deriving DecidableEq

/-- A signal (local.py:249): from the stop of which job, which one, to which id, and which process was there (`none`: none). -/
structure Sent where
  job : Nat
  sig : Sig
  pid : Nat
  hit : Option Proc
  deriving DecidableEq

/-- Everything (local.py:216-299). `pidOf` is `pid` of the states in the database, `log` whether the log file of a job exists
(local.py:219, 221). -/
structure World where
  procs : Nat → Option Proc
  stat : Nat → Stat
  pidOf : Nat → Option Nat
  log : Nat → Bool
  sent : List Sent

/-- No job yet, and some processes on the machine (local.py:216). -/
def World.init (others : Nat → Bool) : World where
  procs := fun p => if others p then some ⟨none, false⟩ else none
  stat := fun _ => .created
  pidOf := fun _ => none
  log := fun _ => false
  sent := []

/-- What may happen, in any order (local.py:216-299, db_base.py:1251-1384). -/
inductive Op where
  | start (j : Nat)
  | spawn (j pid : Nat)
  | spawnFail (j : Nat)
  | record (j : Nat)
  | mark (j : Nat)
  | timeout (j : Nat)
  | stop (j : Nat)
  | signal (j : Nat)
  | gone (j : Nat)
  | late (j : Nat)
  | crash
  | exit (pid : Nat)
  | other (pid : Nat)
  deriving DecidableEq

/-- db_base.py:1251-1257, 1350-1357, local.py:216-221: a start. `temp j`: the job gets a new directory with each start, which holds
for schedulers without `clusters_directory` (local.py:163-166). Otherwise a log file that exists already is an error,
and the job is to be stopped (db_base.py:1262-1273, 1361-1372). -/
def World.start (temp : Nat → Bool) (w : World) (j : Nat) : World :=
  if w.stat j = .created then
    if w.log j = true ∧ temp j = false then { w with stat := upd w.stat j .submitted }
    else { w with stat := upd w.stat j .starting, log := upd w.log j true }
  else w

/-- local.py:222-229: the process is there. -/
def World.spawn (w : World) (j pid : Nat) : World :=
  if w.stat j = .starting ∧ w.procs pid = none then
    { w with procs := upd w.procs pid (some ⟨some j, false⟩), stat := upd w.stat j (.spawned pid) }
  else w

/-- local.py:222-229: the process cannot be started (db_base.py:1262-1273, 1361-1372). -/
def World.spawnFail (w : World) (j : Nat) : World :=
  if w.stat j = .starting then { w with stat := upd w.stat j .submitted } else w

/-- local.py:267, 290, db_base.py:1257, 1357: the id of the process is put down. -/
def World.record (w : World) (j : Nat) : World :=
  match w.stat j with
  | .spawned pid => { w with pidOf := upd w.pidOf j (some pid), stat := upd w.stat j .recorded }
  | _ => w

/-- db_base.py:1258, 1358: the status is put down. -/
def World.mark (w : World) (j : Nat) : World :=
  match w.stat j with
  | .recorded => { w with stat := upd w.stat j .submitted }
  | _ => w

/-- A process gets a SIGKILL. (local.py:249; asyncio in local.py:222) -/
def World.kill (w : World) (pid : Nat) : World :=
  match w.procs pid with
  | some p => { w with procs := upd w.procs pid (some { p with killed := true }) }
  | none => w

/-- db_base.py:1254, 1265, 1353, 1364: the start takes too long, and is cancelled. -/
def World.timeout (w : World) (j : Nat) : World :=
  match w.stat j with
  | .starting => { w with stat := upd w.stat j .submitted }
  | .spawned pid => { w.kill pid with stat := upd w.stat j .submitted }
  | _ => w

/-- db_base.py:1287-1290, 1374-1378, local.py:269-272, 292-295: a stop begins. A job that was not submitted has nothing to
be stopped. -/
def World.stop (w : World) (j : Nat) : World :=
  match w.stat j with
  | .created => { w with stat := upd w.stat j .stopped }
  | .submitted =>
    match w.pidOf j with
    | none => { w with stat := upd w.stat j .stopped }
    | some _ => { w with stat := upd w.stat j (.stopping 0 false) }
  | _ => w

/-- local.py:241-245 the signals in turn -/
def sigAt : Nat → Sig
  | 0 => .int
  | 1 => .term
  | _ => .kill

/-- local.py:247-249: a signal is sent. -/
def World.signal (w : World) (j : Nat) : World :=
  match w.stat j, w.pidOf j with
  | .stopping i false, some pid =>
    { (if sigAt i = .kill then w.kill pid else w) with
      stat := upd w.stat j (.stopping i true)
      sent := w.sent ++ [⟨j, sigAt i, pid, w.procs pid⟩] }
  | _, _ => w

/-- local.py:48-49, 250-251: the process is seen to be gone. -/
def World.gone (w : World) (j : Nat) : World :=
  match w.stat j, w.pidOf j with
  | .stopping _ true, some pid => if w.procs pid = none then { w with stat := upd w.stat j .stopped } else w
  | _, _ => w

/-- local.py:47-54, 247, 253-255: the time to wait is over: the next signal, or a warning. -/
def World.late (w : World) (j : Nat) : World :=
  match w.stat j with
  | .stopping i true =>
    if i < 2 then { w with stat := upd w.stat j (.stopping (i + 1) false) } else { w with stat := upd w.stat j .stopped }
  | _ => w

/-- What a restarted gateway makes of a job (db_base.py:340-388): a start that was under way is begun again, and so is a
stop. -/
def Stat.reload : Stat → Stat
  | .starting => .created
  | .spawned _ => .created
  | .recorded => .created
  | .stopping _ _ => .submitted
  | s => s

/-- The gateway is killed at any moment and started again. Processes go on in their own sessions (local.py:225). -/
def World.crash (w : World) : World := { w with stat := fun j => (w.stat j).reload }

/-- A process ends, and its id is free (local.py:33-38). -/
def World.exit (w : World) (pid : Nat) : World := { w with procs := upd w.procs pid none }

/-- Another process is started on the machine (local.py:33: by anyone). -/
def World.other (w : World) (pid : Nat) : World :=
  if w.procs pid = none then { w with procs := upd w.procs pid (some ⟨none, false⟩) } else w

/-- One of these (local.py:216-299). -/
def World.step (temp : Nat → Bool) (w : World) : Op → World
  | .start j => w.start temp j
  | .spawn j pid => w.spawn j pid
  | .spawnFail j => w.spawnFail j
  | .record j => w.record j
  | .mark j => w.mark j
  | .timeout j => w.timeout j
  | .stop j => w.stop j
  | .signal j => w.signal j
  | .gone j => w.gone j
  | .late j => w.late j
  | .crash => w.crash
  | .exit pid => w.exit pid
  | .other pid => w.other pid

/-- Any number of them (local.py:216-299). -/
def World.run (temp : Nat → Bool) (w : World) (ops : List Op) : World := ops.foldl (World.step temp) w

/-- local.py:278-283, 298-299 `_check_status`, the answer of the checks for a job. -/
def World.check (w : World) (j : Nat) : Bool :=
  match w.pidOf j with
  | none => false
  | some pid => (w.procs pid).isSome

/-! ### The rights of processes -/

/-- The user, the group and the further groups of a process, and its directory (local.py:152-158). -/
structure Creds where
  uid : Nat
  gid : Nat
  groups : List Nat
  dir : Str
  deriving DecidableEq

/-- A user (local.py:145-148): the entry in the password database, and the groups of which they are members. -/
structure User where
  uid : Nat
  gid : Nat
  groups : List Nat
  deriving DecidableEq

/-- What the operating system allows to the process that is being started (local.py:152-158). -/
structure Allows where
  setgid : Bool
  setgroups : Bool
  setuid : Bool
  chdir : Bool
  deriving DecidableEq

/-- local.py:152-158 `preexec`: `none` if it raises, then the command is not run. -/
def preexec (a : Allows) (u : User) (workdir : Str) (c : Creds) : Option Creds :=
  if a.setgid = false then none
  else
    let c := { c with gid := u.gid }
    let c := if a.setgroups = false then c else { c with groups := u.groups }
    if a.setuid = false then none
    else
      let c := { c with uid := u.uid }
      if a.chdir = false then none else some { c with dir := workdir }

/-- local.py:314-320 `preexec` of the backend for tests. -/
def unsafePreexec (a : Allows) (workdir : Str) (c : Creds) : Option Creds :=
  if a.chdir = false then none else some { c with dir := workdir }

/-- local.py:143-148: what `make_preexec_fn` looks up: the user of the cluster, by name, and every group that lists the
name; `none` if there is no such user. -/
def lookupUser (passwd : List (Str × Nat × Nat)) (group : List (Nat × List Str)) (name : Str) : Option User :=
  (lookup passwd name).map fun e =>
    { uid := e.1, gid := e.2, groups := (group.filter (fun g => g.2.contains name)).map (fun g => g.1) }

/-- local.py:216-229 `start_process`: the rights of the process that runs the command; `none` if it is not started. -/
def startProcess (passwd : List (Str × Nat × Nat)) (group : List (Nat × List Str)) (a : Allows) (name workdir : Str)
    (gateway : Creds) : Option Creds :=
  match lookupUser passwd group name with
  | none => none
  | some u => preexec a u workdir gateway

end Verif.Local
