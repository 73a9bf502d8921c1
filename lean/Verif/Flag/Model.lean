/-
Model of `Flag` (dask-gateway-server/dask_gateway_server/utils.py:276-290), on which requests wait for a cluster to
start (backends/db_base.py:917, backends/kubernetes/backend.py:437-438), the gateway for clusters to end when it stops
(db_base.py:892) and for the proxy to make contact (proxy/core.py:272).

What asyncio does is modelled as far as it matters: futures, `asyncio.shield`, `Task.cancel`, and that callbacks and
tasks run later than what made them ready. A timeout of `asyncio.wait_for` cancels what it waits for, so it is the
cancellation of a waiter here; that `wait_for` turns it into `TimeoutError` is left out.
-/
namespace Verif.Flag

/-- The state of a future; the only result is `None` (utils.py:284). -/
inductive Fut where
  | pending
  | done
  | cancelled
deriving DecidableEq, Repr

/-- How an `await flag` ended. -/
inductive Out where
  | returned
  | cancelled
deriving DecidableEq, Repr

/-- A task at `await flag` (utils.py:286-287): the future that it awaits, which `asyncio.shield` made; whether it was
cancelled after that was done, but before it ran again; how the await ended. -/
structure Waiter where
  outer : Fut
  mustCancel : Bool
  out : Option Out
deriving DecidableEq, Repr

/-- The future of a flag (utils.py:280), and all that ever waited for it, in order. -/
structure Flag where
  future : Fut
  waiters : List Waiter
deriving DecidableEq, Repr

/-- utils.py:279-280 `__init__`. -/
def Flag.new : Flag := ⟨.pending, []⟩

/-- `Future.set_result(None)` (utils.py:284); `none` is `InvalidStateError`. -/
def Fut.setResult : Fut → Option Fut
  | .pending => some .done
  | _ => none

/-- utils.py:282-284 `set`. -/
def Flag.set (f : Flag) : Option Flag :=
  if f.future = .pending then f.future.setResult.map (fun r => { f with future := r }) else some f

/-- utils.py:289-290 `is_set`. -/
def Flag.isSet (f : Flag) : Bool := f.future ≠ .pending

/-- How awaiting a future ends that is not pending. -/
def Fut.out : Fut → Option Out
  | .pending => none
  | .done => some .returned
  | .cancelled => some .cancelled

/-- utils.py:286-287 `__await__`: `shield` gives the future itself if it is done, and that is awaited without a pause;
otherwise a new one. -/
def Flag.wait (f : Flag) : Flag :=
  { f with waiters := f.waiters ++ [{ outer := f.future, mustCancel := false, out := f.future.out }] }

/-- A change of one waiter. -/
def Flag.at (f : Flag) (i : Nat) (g : Waiter → Waiter) : Flag :=
  match f.waiters[i]? with
  | some w => { f with waiters := f.waiters.set i (g w) }
  | none => f

/-- The callback of `asyncio.shield` on the inner future, when the loop gets to it: the outer future takes over the
state, if it is not done already (utils.py:287). -/
def Waiter.callback (inner : Fut) (w : Waiter) : Waiter :=
  if w.outer = .pending then { w with outer := inner } else w

/-- `Task.cancel` of a task that awaits the outer future: that is cancelled if it is pending, and not the inner one;
otherwise the task will be thrown a `CancelledError` when it runs. A task that is done is not changed (utils.py:287). -/
def Waiter.cancel (w : Waiter) : Waiter :=
  if w.out.isSome then w
  else if w.outer = .pending then { w with outer := .cancelled }
  else { w with mustCancel := true }

/-- The task runs again after the future it awaits is done (utils.py:287). -/
def Waiter.resume (w : Waiter) : Waiter :=
  if w.out.isSome then w
  else match w.outer with
    | .pending => w
    | .done => { w with out := some (if w.mustCancel then .cancelled else .returned) }
    | .cancelled => { w with out := some .cancelled }

/-- What can happen. -/
inductive Ev where
  | wait
  | set
  | cancel (i : Nat)
  | callback (i : Nat)
  | resume (i : Nat)
deriving DecidableEq, Repr

/-- One event (utils.py:276-290). -/
def Flag.step (f : Flag) : Ev → Option Flag
  | .wait => some f.wait
  | .set => f.set
  | .cancel i => some (f.at i Waiter.cancel)
  | .callback i => some (f.at i (Waiter.callback f.future))
  | .resume i => some (f.at i Waiter.resume)

/-- A history of a flag (utils.py:276-290); `none` if something raised that must not. -/
def Flag.run (f : Flag) : List Ev → Option Flag
  | [] => some f
  | e :: h =>
    match f.step e with
    | some f' => f'.run h
    | none => none

end Verif.Flag
