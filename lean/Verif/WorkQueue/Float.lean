import Verif.WorkQueue.Model

/-!
# The wait after a failure, with the numbers the program has

`Backoff` (dask-gateway-server/dask_gateway_server/workqueue.py:8-35) multiplies a float with an integer, a power of two
that has no bound. `Backoff.backoff` of the model takes both for rationals; here is what floats make of it, and what that
does to the tasks that take items from the queue: `reconciler_loop` (backends/db_base.py:1158-1190,
backends/kubernetes/controller.py:583-605) and `sync_clusters_loop` (backends/kubernetes/backend.py:537-551).
-/

namespace Verif.WorkQueue

variable {α : Type} [DecidableEq α]

/-- `float(2**n)`, which Python does before it multiplies (workqueue.py:26): `OverflowError` (`none`) if the number is too
large for a float, that is from `2**1024` on; below, a power of two is a float exactly. -/
def floatPow (n : Nat) : Option Rat := if 2 ^ n < (2 ^ 1024 : Nat) then some ((2 : Rat) ^ n) else none

/-- workqueue.py:22-27 `Backoff.backoff` with floats; `none` is `OverflowError`. The count goes up before the product is
made (workqueue.py:24-26). Multiplication of a float by a power of two is exact, or gives infinity, of which the minimum
with a finite `max_delay` is `max_delay`, as it is for the exact product; so the value is the exact one. Both delays are
floats as traitlets makes them (db_base.py:782-801, controller.py:218-237), and finite. -/
def Backoff.backoffF (b : Backoff α) (x : α) : Backoff α × Option Rat :=
  let exp := b.failures x
  ({ b with failures := fun y => if y = x then exp + 1 else b.failures y },
    (floatPow exp).map fun p => min (b.base * p) b.cap)

/-- The tasks that take items from one queue and what they work on: how many of them live, the failures of each item
(workqueue.py:18), the items that are ready and those for which a timer is armed (workqueue.py:59-67). -/
structure Pool (α : Type) where
  workers : Nat
  backoff : Backoff α
  ready : List α
  armed : List α

/-- What may happen: a task takes an item and its work on it succeeds or fails; a timer is due; an event puts an item.
Simplified: from `get` to `task_done` is one step; that no two tasks have one item is C01. (db_base.py:1158-1190,
workqueue.py:104-137) -/
inductive Happening (α : Type) where
  | attempt (x : α) (fails : Bool)
  | due (x : α)
  | event (x : α)
  deriving Repr

/-- `WorkQueue._put` (workqueue.py:73-77). -/
def Pool.put (s : Pool α) (x : α) : Pool α := { s with ready := addS x s.ready }

/-- One turn of the loop for an item that is ready (db_base.py:1179-1190, controller.py:590-605, backend.py:543-551). After a
failure `put_backoff` is called inside `except`: an `OverflowError` of it leaves the `while` and ends the task; the item
is marked done, and nothing puts it again. A wait that is not positive puts the item at once (workqueue.py:121-129); here
its timer is then due at once. -/
def Pool.turn (s : Pool α) (x : α) (fails : Bool) : Pool α :=
  if fails then
    match s.backoff.backoffF x with
    | (b, some _) => { s with backoff := b, ready := delS x s.ready, armed := addS x s.armed }
    | (b, none) => { s with backoff := b, ready := delS x s.ready, workers := s.workers - 1 }
  else { s with backoff := s.backoff.reset x, ready := delS x s.ready }

/-- The next state, and the attempt that was made if one was. An attempt needs a task and an item that is ready
(workqueue.py:147-163). (db_base.py:1158-1190, workqueue.py:104-137) -/
def Pool.step (s : Pool α) : Happening α → Pool α × Option (Bool × α)
  | .attempt x fails => if 0 < s.workers ∧ x ∈ s.ready then (s.turn x fails, some (fails, x)) else (s, none)
  | .due x => if x ∈ s.armed then ({ s with armed := delS x s.armed }.put x, none) else (s, none)
  | .event x => (s.put x, none)

/-- A history: the last state, and the attempts that were made, newest first. (db_base.py:1158-1190) -/
def Pool.run : Pool α × List (Bool × α) → List (Happening α) → Pool α × List (Bool × α)
  | s, [] => s
  | (s, log), h :: t =>
    match s.step h with
    | (s', some a) => Pool.run (s', a :: log) t
    | (s', none) => Pool.run (s', log) t

/-- `setup` starts the tasks (db_base.py:820-835, controller.py:375-430); nothing is ready. -/
def Pool.start (n : Nat) (base cap : Rat) : Pool α := ⟨n, ⟨base, cap, fun _ => 0⟩, [], []⟩

end Verif.WorkQueue
