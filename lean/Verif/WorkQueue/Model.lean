/-
Model of `dask-gateway-server/dask_gateway_server/workqueue.py` (`Backoff`, `WorkQueue`).

Python sets are modelled by lists of which only membership matters (`addS`, `delS`).
Everything between two suspension points of asyncio is one operation; the only suspension
point of this file is `await waiter` in `WorkQueue.get` (workqueue.py:155), so a blocked
getter is explicit state (`waiting`, `woken`, `cancelledF`, `doomed`).
Times and delays are rationals (the code uses floats; rounding is not modelled).
-/
namespace Verif.WorkQueue

/-- `set.add` (used at workqueue.py:75, 83). -/
def addS {β : Type} [DecidableEq β] (x : β) (s : List β) : List β :=
  if x ∈ s then s else x :: s

/-- `set.discard` (used at workqueue.py:84, 169). -/
def delS {β : Type} [DecidableEq β] (x : β) (s : List β) : List β :=
  s.filter (fun y => y ≠ x)

/-- workqueue.py:17-20 `Backoff.__init__`: parameters and the `_failures` dict.
A `defaultdict(int)` is modelled as a function that is `0` for absent items;
`backoff` inserts and `reset` removes, and `failures` reads `0` for absent items, so
presence of a key is not observable. -/
structure Backoff (α : Type) where
  base : Rat
  cap : Rat
  failures : α → Nat

/-- workqueue.py:22-27 `Backoff.backoff`. -/
def Backoff.backoff {α : Type} [DecidableEq α] (b : Backoff α) (x : α) : Backoff α × Rat :=
  let exp := b.failures x
  ({ b with failures := fun y => if y = x then exp + 1 else b.failures y },
    min (b.base * (2 : Rat) ^ exp) b.cap)

/-- workqueue.py:33-35 `Backoff.reset`. -/
def Backoff.reset {α : Type} [DecidableEq α] (b : Backoff α) (x : α) : Backoff α :=
  { b with failures := fun y => if y = x then 0 else b.failures y }

/-- workqueue.py:59-67 `WorkQueue.__init__`. Getters are identified by a number (the asyncio
task that runs `get`).

* `waiting` is `_waiting`, the deque of futures, each named by the getter that awaits it;
* `cancelledF` are getters whose pending future was cancelled and which did not run yet
  (`Task.cancel` cancels the awaited future at once, so `waiter.done()` holds);
* `woken` are getters whose future got a result and which did not run yet;
* `doomed` are woken getters whose task was cancelled before they ran (asyncio throws
  `CancelledError` into them at the `await`). -/
structure WQ (α : Type) where
  backoff : Backoff α
  queue : List α
  processing : List α
  dirty : List α
  timers : List (α × Rat)
  closed : Bool
  waiting : List Nat
  cancelledF : List Nat
  woken : List Nat
  doomed : List Nat

/-- workqueue.py:59-67. -/
def WQ.init {α : Type} (b : Backoff α) : WQ α :=
  { backoff := b, queue := [], processing := [], dirty := [], timers := [], closed := false,
    waiting := [], cancelledF := [], woken := [], doomed := [] }

variable {α : Type} [DecidableEq α]

/-- workqueue.py:73-77 `_put`. -/
def WQ.put_ (s : WQ α) (x : α) : WQ α :=
  if x ∈ s.dirty then s
  else
    let s := { s with dirty := addS x s.dirty }
    if x ∈ s.processing then s else { s with queue := s.queue ++ [x] }

/-- Result of `_get` and of `get` (workqueue.py:79-85, 147-162). -/
inductive GetRes (α : Type) where
  /-- returned the item -/
  | item (x : α)
  /-- raised `WorkQueueClosed` -/
  | closed
  /-- the getter is now suspended -/
  | blocked
  /-- raised `CancelledError` -/
  | cancelled
  /-- `popleft` on an empty deque: `IndexError` (never reached, see `Props`) -/
  | indexError
deriving DecidableEq, Repr

/-- workqueue.py:79-85 `_get`. -/
def WQ.get_ (s : WQ α) : WQ α × GetRes α :=
  if s.closed then (s, .closed)
  else
    match s.queue with
    | [] => (s, .indexError)
    | x :: q =>
      ({ s with queue := q, processing := addS x s.processing, dirty := delS x s.dirty }, .item x)

/-- workqueue.py:87-92 `_wakeup_next`: pops futures until one that is not done was woken. Gives the
remaining deque and the getter woken, if any. -/
def wakeupNext (cancelledF : List Nat) : List Nat → List Nat × Option Nat
  | [] => ([], none)
  | w :: ws => if w ∈ cancelledF then wakeupNext cancelledF ws else (ws, some w)

/-- workqueue.py:87-92 on the queue state. -/
def WQ.wakeup (s : WQ α) : WQ α :=
  match wakeupNext s.cancelledF s.waiting with
  | (ws, none) => { s with waiting := ws }
  | (ws, some w) => { s with waiting := ws, woken := s.woken ++ [w] }

/-- workqueue.py:94-98 `_wakeup_all`. -/
def WQ.wakeupAll (s : WQ α) : WQ α :=
  { s with waiting := [],
           woken := s.woken ++ s.waiting.filter (fun w => w ∉ s.cancelledF) }

/-- workqueue.py:104-107 `put`. -/
def WQ.put (s : WQ α) (x : α) : WQ α := (s.put_ x).wakeup

/-- `dict.get` on `_timers` (workqueue.py:116). -/
def timerOf (ts : List (α × Rat)) (x : α) : Option Rat :=
  (ts.find? (fun p => p.1 = x)).map (·.2)

/-- `dict.pop(item, None)` on `_timers` (workqueue.py:101, 128). -/
def delTimer (ts : List (α × Rat)) (x : α) : List (α × Rat) :=
  ts.filter (fun p => p.1 ≠ x)

/-- `_timers[item] = ...` (workqueue.py:123). The old handle was cancelled before
(workqueue.py:119-120), so one entry stands for one armed timer. -/
def setTimer (ts : List (α × Rat)) (x : α) (w : Rat) : List (α × Rat) :=
  (x, w) :: delTimer ts x

/-- workqueue.py:118: `existing is None or existing[1] > when`. -/
def sooner : Option Rat → Rat → Bool
  | none, _ => true
  | some e, w => decide (e > w)

/-- workqueue.py:109-129 `put_after`, at loop time `now`. The second component tells whether the
item was put at once. -/
def WQ.putAfter (s : WQ α) (now : Rat) (x : α) (delay : Rat) : WQ α × Bool :=
  let when_ := now + delay
  if sooner (timerOf s.timers x) when_ then
    if delay > 0 then ({ s with timers := setTimer s.timers x when_ }, false)
    else (({ s with timers := delTimer s.timers x }).put x, true)
  else (s, false)

/-- workqueue.py:100-102 `_put_delayed`, run by the loop when the timer fires. -/
def WQ.putDelayed (s : WQ α) (x : α) : WQ α :=
  ({ s with timers := delTimer s.timers x }).put x

/-- workqueue.py:131-137 `put_backoff`. -/
def WQ.putBackoff (s : WQ α) (now : Rat) (x : α) : WQ α × Bool :=
  let (b, d) := s.backoff.backoff x
  ({ s with backoff := b }).putAfter now x d

/-- workqueue.py:147-162 `get`, from the top of the loop up to the next suspension. -/
def WQ.getLoop (s : WQ α) (t : Nat) : WQ α × GetRes α :=
  match s.queue with
  | [] => if s.closed then (s, .closed) else ({ s with waiting := s.waiting ++ [t] }, .blocked)
  | _ :: _ => s.get_

/-- workqueue.py:164-172 `task_done`. -/
def WQ.taskDone (s : WQ α) (x : α) : WQ α :=
  let s := { s with processing := delS x s.processing }
  if x ∈ s.dirty then ({ s with queue := s.queue ++ [x] }).wakeup else s

/-- workqueue.py:174-180 `close`. -/
def WQ.close (s : WQ α) : WQ α := ({ s with closed := true }).wakeupAll

/-- Operations: the public methods, the loop firing a timer, a blocked getter being resumed by the
loop, and the cancellation of a getter's task (workqueue.py:104-178). -/
inductive Op (α : Type) where
  | put (x : α)
  | putAfter (now : Rat) (x : α) (delay : Rat)
  | putBackoff (now : Rat) (x : α)
  | resetBackoff (x : α)
  | fire (x : α)
  | get (t : Nat)
  | resume (t : Nat)
  | cancel (t : Nat)
  | taskDone (x : α)
  | close

/-- What an outside observer of the queue sees (workqueue.py:104-178). -/
inductive Ev (α : Type) where
  /-- `put(x)` was called -/
  | put (x : α)
  /-- a delayed put of `x` was requested for time `w` and not carried out at once -/
  | requested (x : α) (w : Rat)
  /-- a delayed put of `x` was carried out (by the timer, or at once for a delay `≤ 0`) -/
  | due (x : α)
  /-- getter `t` received `x` -/
  | got (t : Nat) (x : α)
  /-- a consumer marked `x` done -/
  | done (x : α)
  /-- getter `t` failed with `WorkQueueClosed` -/
  | failed (t : Nat)
  /-- getter `t` is suspended -/
  | blocked (t : Nat)
  /-- getter `t` raised `CancelledError` -/
  | cancelled (t : Nat)
  /-- getter `t` raised an internal error -/
  | crashed (t : Nat)
  /-- the queue was closed -/
  | closed
deriving DecidableEq, Repr

/-- Observation of a getter's result (workqueue.py:147-162). -/
def evOf (t : Nat) : GetRes α → Ev α
  | .item x => .got t x
  | .closed => .failed t
  | .blocked => .blocked t
  | .cancelled => .cancelled t
  | .indexError => .crashed t

/-- A task runs one `get` at a time: it is busy while blocked, woken or about to be cancelled
(workqueue.py:147-162). -/
def WQ.busy (s : WQ α) (t : Nat) : Bool :=
  t ∈ s.waiting ∨ t ∈ s.woken ∨ t ∈ s.cancelledF ∨ t ∈ s.doomed

/-- One atomic operation. Operations that cannot happen (firing a timer that is not armed, resuming
a getter that is not runnable, a second `get` by a busy task, cancelling an idle task) change
nothing and are not observed (workqueue.py:104-178). -/
def WQ.step (s : WQ α) : Op α → WQ α × List (Ev α)
  | .put x => (s.put x, [.put x])
  | .putAfter now x d =>
    let (s', b) := s.putAfter now x d
    (s', [if b then .due x else .requested x (now + d)])
  | .putBackoff now x =>
    let (s', b) := s.putBackoff now x
    (s', [if b then .due x else .requested x (now + (s.backoff.backoff x).2)])
  | .resetBackoff x => ({ s with backoff := s.backoff.reset x }, [])  -- workqueue.py:143-145
  | .fire x => match timerOf s.timers x with
    | none => (s, [])
    | some _ => (s.putDelayed x, [.due x])
  | .get t =>
    if s.busy t then (s, [])
    else
      let (s', r) := s.getLoop t
      (s', [evOf t r])
  | .resume t =>
    if t ∈ s.doomed then        -- CancelledError thrown at workqueue.py:155; future not in deque
      ({ s with doomed := delS t s.doomed }, [.cancelled t])
    else if t ∈ s.cancelledF then  -- workqueue.py:156-161
      ({ s with cancelledF := delS t s.cancelledF, waiting := s.waiting.erase t }, [.cancelled t])
    else if t ∈ s.woken then       -- back to the loop head, workqueue.py:149
      let (s', r) := ({ s with woken := s.woken.erase t }).getLoop t
      (s', [evOf t r])
    else (s, [])
  | .cancel t =>
    if t ∈ s.doomed ∨ t ∈ s.cancelledF then (s, [])
    else if t ∈ s.waiting then ({ s with cancelledF := addS t s.cancelledF }, [])
    else if t ∈ s.woken then
      ({ s with doomed := addS t s.doomed, woken := s.woken.erase t }, [])
    else (s, [])
  | .taskDone x => (s.taskDone x, [.done x])
  | .close => (s.close, [.closed])

/-- One operation on a state together with the log of what was observed, newest first (workqueue.py:104-178). -/
def stepLog (p : WQ α × List (Ev α)) (o : Op α) : WQ α × List (Ev α) :=
  let (s', e) := p.1.step o
  (s', e ++ p.2)

/-- A fresh queue after the operations `ops`, and the log of what was observed, newest first (workqueue.py:59-178). -/
def exec (b : Backoff α) (ops : List (Op α)) : WQ α × List (Ev α) :=
  ops.foldl stepLog (WQ.init b, [])

/-- `n` calls of `get` by a getter that does not wait, until one does not return an item (workqueue.py:147-162). -/
def gets (s : WQ α) (t : Nat) : Nat → List α
  | 0 => []
  | n + 1 => match s.getLoop t with
    | (s', .item x) => x :: gets s' t n
    | _ => []

end Verif.WorkQueue
