import Verif.Json
/-
Model of adaptive and explicit scaling in the scheduler's plugin:
dask-gateway/dask_gateway/scheduler_preload.py:300-351, with dask_gateway/utils.py:11-16.

Counts and bounds are integers (the gateway checks that before it forwards them, see C36; anything else
raises in the loop's `try` and is logged).
-/
namespace Verif.Sched

/-- scheduler_preload.py:147-152, 327 what scaling reads and writes. `window` is the deque of the
adaptive loop, `none` if there is no adaptive task. `busy` tells that the adaptive loop is suspended in
`Waiter.interrupt` (scheduler_preload.py:41-45), with the count already set. `hung` counts the requests
that wait for ever for the adaptive task to end. -/
structure Adapt where
  count : Int
  minimum : Option Int
  maximum : Option Int
  window : Option (List Int)
  busy : Bool
  hung : Nat
  deriving DecidableEq

/-- scheduler_preload.py:132, 147-152, before any request. -/
def Adapt.init : Adapt :=
  { count := 0, minimum := none, maximum := none, window := none, busy := false, hung := 0 }

/-- `window.append(x)` for a deque with `maxlen` (scheduler_preload.py:327, 338). -/
def push (size : Nat) (l : List Int) (x : Int) : List Int :=
  (l ++ [x]).drop ((l ++ [x]).length - size)

/-- `max(window)`; `none` where it raises (scheduler_preload.py:343). -/
def maxOf : List Int → Option Int
  | [] => none
  | x :: l =>
    match maxOf l with
    | none => some x
    | some m => some (if m > x then m else x)

/-- scheduler_preload.py:333-336 the demand within the bounds. -/
def Adapt.target (a : Adapt) (demand : Int) : Int :=
  let t := match a.minimum with
    | none => demand
    | some m => if demand > m then demand else m
  match a.maximum with
  | none => t
  | some m => if t < m then t else m

/-- scheduler_preload.py:340-345 the count to request, if any. -/
def decideCount (count target : Int) (window : List Int) : Option Int :=
  if target > count then some target
  else if target < count then
    match maxOf window with
    | none => none
    | some m => if m < count then some m else none
  else none

/-- scheduler_preload.py:328-349 one round of the adaptive loop, with the count it requests. `waits` tells
that the heartbeat loop sleeps, so that interrupting it suspends the round. -/
def Adapt.tick (size : Nat) (a : Adapt) (demand : Int) (waits : Bool) : Adapt × Option Int :=
  match a.window with
  | none => (a, none)
  | some window =>
    if a.busy then (a, none)
    else
      let w := push size window (a.target demand)
      match decideCount a.count (a.target demand) w with
      | none => ({ a with window := some w }, none)
      | some n => ({ a with window := some w, count := n, busy := waits }, some n)

/-- scheduler_preload.py:44-45 the interrupted sleep has ended and the adaptive round goes on. -/
def Adapt.resume (a : Adapt) : Adapt := { a with busy := false }

/-- scheduler_preload.py:311-319 `adapt` with `active=True`. -/
def Adapt.enable (a : Adapt) (minimum maximum : Option Int) : Adapt :=
  { a with minimum, maximum, window := some (a.window.getD []) }

/-- scheduler_preload.py:320-324 `adapt` with `active=False`, and whether it returns. Cancelling the
adaptive task while it is suspended in `cancel_task` (utils.py:11-16) is swallowed there: the task goes
on, and the caller waits for it. -/
def Adapt.disable (a : Adapt) : Adapt × Bool :=
  match a.window with
  | none => (a, true)
  | some _ => if a.busy then ({ a with hung := a.hung + 1 }, false) else ({ a with window := none }, true)

/-- scheduler_preload.py:300-309 `scale`. -/
def Adapt.scale (a : Adapt) (count : Int) : Adapt :=
  match a.disable with
  | (a', true) => { a' with count }
  | (a', false) => a'

/-- What happens to the service's scaling (scheduler_preload.py:81-98, 300-351). -/
inductive AOp where
  /-- a request for adaptive scaling (scheduler_preload.py:89-95) -/
  | enable (minimum maximum : Option Int)
  /-- a request to stop it (scheduler_preload.py:89-95) -/
  | disable
  /-- a request for a number of workers (scheduler_preload.py:86-88) -/
  | scale (count : Int)
  /-- a round of the loop (scheduler_preload.py:328-345) -/
  | tick (demand : Int) (waits : Bool)
  /-- the round goes on (scheduler_preload.py:346-351) -/
  | resume
  deriving DecidableEq

/-- One step of the service's scaling (scheduler_preload.py:86-95, 300-351). -/
def Adapt.step (size : Nat) (a : Adapt) : AOp → Adapt
  | .enable lo hi => a.enable lo hi
  | .disable => a.disable.1
  | .scale n => a.scale n
  | .tick d waits => (a.tick size d waits).1
  | .resume => a.resume

/-- A history of the service's scaling (scheduler_preload.py:86-95, 300-351). -/
def Adapt.run (size : Nat) (ops : List AOp) : Adapt := ops.foldl (Adapt.step size) .init

end Verif.Sched
