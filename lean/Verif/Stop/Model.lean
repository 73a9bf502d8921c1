/-
Model of `run_main` and `_cancel_all_tasks` (dask-gateway-server/dask_gateway_server/utils.py:293-340) with
`cancel_task` (146-153): what becomes of the tasks of the gateway or of the Kubernetes controller when their process
ends (app.py:241-244, backends/kubernetes/controller.py:326-329).

What happens in the event loop is a list of events. A task may do anything until it ends, also after it was cancelled;
when it ends, and how, is given by the events. `asyncio.all_tasks` gives a set; here it is a list in the order of
creation.
-/
namespace Verif.Stop

/-- How a task ended: with a result, an exception or cancelled. -/
inductive End where
  | returned
  | failed (e : Nat)
  | cancelled
deriving DecidableEq, Repr

/-- A task: `asked` if `cancel` was called while it ran; `ended` with how. -/
structure Task where
  asked : Bool
  ended : Option End
deriving DecidableEq, Repr

/-- What can happen while the loop runs: a task creates another, a task ends, a signal handler raises `GracefulExit` or
`KeyboardInterrupt` (app.py:189-191, 243), which leaves the loop. -/
inductive Ev where
  | spawn
  | finish (i : Nat) (e : End)
  | signal
deriving DecidableEq, Repr

/-- `finish`: the state of a task when it ends; a task that has ended stays as it is. -/
def Task.finish (e : End) (t : Task) : Task := if t.ended.isNone then { t with ended := some e } else t

/-- `task.cancel()` (utils.py:149, 326). -/
def Task.cancel (t : Task) : Task := if t.ended.isNone then { t with asked := true } else t

/-- One event in the loop (utils.py:307, 311, 328). -/
def step (ts : List Task) : Ev → List Task
  | .spawn => ts ++ [{ asked := false, ended := none }]
  | .finish i e => ts.modify i (Task.finish e)
  | .signal => ts

/-- How `loop.run_until_complete` was left, with the events that are still to come. -/
inductive Left where
  | complete (ts : List Task) (rest : List Ev)
  | signalled (ts : List Task) (rest : List Ev)
  /-- it was not left -/
  | running (ts : List Task)
deriving DecidableEq, Repr

/-- `loop.run_until_complete` of something that is complete when `p` holds (utils.py:307, 311, 328). -/
def runUntil (p : List Task → Bool) (ts : List Task) : List Ev → Left
  | [] => if p ts then .complete ts [] else .running ts
  | e :: rest =>
    if p ts then .complete ts (e :: rest)
    else if e = .signal then .signalled ts rest
    else runUntil p (step ts e) rest

/-- How a task ended, if it exists and did. -/
def endOf (ts : List Task) (i : Nat) : Option End := (ts[i]?).bind (·.ended)

/-- What `run_main` does: returns what the main task returned, or raises what it raised, or a `CancelledError`; `signal`
is the exception of the signal handler. -/
inductive Out where
  | main (e : End)
  | raised (e : Nat)
  | signal
deriving DecidableEq, Repr

/-- The end of the process: what `run_main` gave, the tasks when the loop is closed (utils.py:317), and the exceptions
that were reported (utils.py:333-340). -/
structure Outcome where
  out : Out
  tasks : List Task
  reports : List (Nat × Nat)
deriving DecidableEq, Repr

/-- utils.py:333-340: the tasks among those to cancel that ended with an exception. -/
def reports (ts : List Task) (is : List Nat) : List (Nat × Nat) :=
  is.filterMap (fun i => match endOf ts i with
    | some (.failed e) => some (i, e)
    | _ => none)

/-- `asyncio.all_tasks` (utils.py:321): those that have not ended. -/
def allTasks (ts : List Task) : List Nat := (List.range ts.length).filter (fun i => (endOf ts i).isNone)

/-- utils.py:320-340 `_cancel_all_tasks`, then 313 and 315-317. `none`: it goes on for ever. -/
def cancelAll (out : Out) (ts : List Task) (evs : List Ev) : Option Outcome :=
  let is := allTasks ts
  if is = [] then some ⟨out, ts, []⟩
  else
    match runUntil (fun ts => is.all (fun i => (endOf ts i).isSome)) (ts.map Task.cancel) evs with
    | .complete ts _ => some ⟨out, ts, reports ts is⟩
    | .signalled ts _ => some ⟨.signal, ts, []⟩
    | .running _ => none

/-- utils.py:308-314 the `finally` of `run_main`: `cancel_task(main_task)` (146-153), which swallows only
`CancelledError`; an exception leaves the `try`, so that the other tasks are not cancelled. -/
def finish (out : Out) (ts : List Task) (evs : List Ev) : Option Outcome :=
  if (endOf ts 0).isSome then cancelAll out ts evs
  else
    match runUntil (fun ts => (endOf ts 0).isSome) (ts.modify 0 Task.cancel) evs with
    | .complete ts rest =>
      match endOf ts 0 with
      | some (.failed e) => some ⟨.raised e, ts, []⟩
      | _ => cancelAll out ts rest
    | .signalled ts _ => some ⟨.signal, ts, []⟩
    | .running _ => none

/-- utils.py:293-317 `run_main`: the main task is the first. -/
def runMain (evs : List Ev) : Option Outcome :=
  match runUntil (fun ts => (endOf ts 0).isSome) [{ asked := false, ended := none }] evs with
  | .complete ts rest =>
    match endOf ts 0 with
    | some e => finish (.main e) ts rest
    | none => none
  | .signalled ts rest => finish .signal ts rest
  | .running _ => none

end Verif.Stop
