import Verif.Dict
/-
Model of what the scheduler's plugin reports about workers and when, and of the idle check:
dask-gateway/dask_gateway/scheduler_preload.py:23-53, 130-187, 227-298.
-/
namespace Verif.Sched

/-- `s.add(x)` (scheduler_preload.py:170, 180). -/
def setAdd (s : List Str) (x : Str) : List Str := if x ∈ s then s else s ++ [x]

/-- `s.discard(x)` (scheduler_preload.py:171-172, 179, 182). -/
def setDel (s : List Str) (x : Str) : List Str := s.filter (fun y => y ≠ x)

/-- `s.difference(t)` (scheduler_preload.py:253). -/
def setMinus (s t : List Str) : List Str := s.filter (fun y => y ∉ t)

/-- scheduler_preload.py:155-158 what the service knows of workers: `address_to_worker` (with the names)
and the three sets. -/
structure Svc where
  workers : List (Str × Str)
  active : List Str
  closing : List Str
  closed : List Str
  deriving DecidableEq

/-- scheduler_preload.py:155-158. -/
def Svc.init : Svc := { workers := [], active := [], closing := [], closed := [] }

/-- scheduler_preload.py:167-172 `worker_added`. -/
def Svc.added (s : Svc) (addr name : Str) : Svc :=
  { workers := Dict.set s.workers addr name
    active := setAdd s.active name
    closing := setDel s.closing name
    closed := setDel s.closed name }

/-- scheduler_preload.py:177-182 `worker_removed`; an unknown address raises before anything is done. -/
def Svc.removed (s : Svc) (addr : Str) : Svc :=
  match lookup s.workers addr with
  | none => s
  | some name =>
    { workers := s.workers.filter (fun w => w.1 ≠ addr)
      active := setDel s.active name
      closing := setDel s.closing name
      closed := setAdd s.closed name }

/-- scheduler_preload.py:174-175 whether an added worker is one too many, so that the gateway is to be
told soon. -/
def Svc.surplus (s : Svc) (count : Int) : Bool := decide (s.active.length > count)

/-- scheduler_preload.py:181-187 whether the removal of a worker is unexpected, so that the gateway is to
be told soon. -/
def Svc.lost (s : Svc) (tracked : Bool) (addr : Str) : Bool :=
  match lookup s.workers addr with
  | none => false
  | some name => decide (name ∉ s.closing) && tracked

/-- The workers in a heartbeat (scheduler_preload.py:258-266). -/
structure Msg where
  active : List Str
  closing : List Str
  closed : List Str
  deriving DecidableEq

/-- scheduler_preload.py:249-266; `toClose` is what the scheduler's `workers_to_close` gives. -/
def Svc.message (s : Svc) (count : Int) (toClose : List Str) : Msg :=
  if count < s.active.length then
    { active := setMinus s.active toClose, closing := toClose, closed := s.closed }
  else { active := s.active, closing := [], closed := s.closed }

/-- scheduler_preload.py:270-271 the workers of a delivered heartbeat are going to be retired. -/
def Svc.retiring (s : Svc) (names : List Str) : Svc := { s with closing := names.foldl setAdd s.closing }

/-- scheduler_preload.py:276-277 they could not be. -/
def Svc.retireFailed (s : Svc) (names : List Str) : Svc := { s with closing := setMinus s.closing names }

/-- What happens to the service's workers (scheduler_preload.py:106-115, 167-188, 248-278). -/
inductive WOp where
  /-- scheduler_preload.py:110-111 -/
  | added (addr name : Str)
  /-- scheduler_preload.py:113-114 -/
  | removed (addr : Str)
  /-- scheduler_preload.py:270-274 -/
  | retiring (names : List Str)
  /-- scheduler_preload.py:275-278 -/
  | retireFailed (names : List Str)
  deriving DecidableEq

/-- One step (scheduler_preload.py:110-114, 270-278). -/
def Svc.step (s : Svc) : WOp → Svc
  | .added addr name => s.added addr name
  | .removed addr => s.removed addr
  | .retiring names => s.retiring names
  | .retireFailed names => s.retireFailed names

/-- A history (scheduler_preload.py:110-114, 270-278). -/
def Svc.run (ops : List WOp) : Svc := ops.foldl Svc.step .init

/-! ### The heartbeat loop -/

/-- Where the heartbeat loop is (scheduler_preload.py:280-298): waiting for that long, woken up but the
message not made yet, or with a message sent and workers being retired. -/
inductive Stage where
  | waiting (period : Rat)
  | woken
  | sending
  deriving DecidableEq

/-- scheduler_preload.py:26, 47-54 the timer of `interrupt_soon`: none, still to fire, or fired without
effect. -/
inductive Timer where
  | none
  | pending
  | spent
  deriving DecidableEq

/-- scheduler_preload.py:24-26, 132-142, 281-283 the loop, the count, the timer, and the counts in the
messages made so far, latest last. -/
structure Beat where
  count : Int
  stage : Stage
  timer : Timer
  backoff : Rat
  sent : List Int
  deriving DecidableEq

/-- scheduler_preload.py:134-142 the longest period between heartbeats. -/
def heartbeatMax (period : Rat) : Rat := if max 0 period = 0 then 3600 else period

/-- scheduler_preload.py:134-142 the first period. -/
def heartbeatInitial (period : Rat) : Rat := if max 0 period = 0 then 3600 else 1 / 4

/-- scheduler_preload.py:281-285. -/
def Beat.init (period : Rat) : Beat :=
  { count := 0, stage := .waiting (heartbeatInitial period), timer := .none, backoff := 1 / 4, sent := [] }

/-- scheduler_preload.py:28-45 `interrupt` or the end of the sleep: ends the wait if there is one. -/
def Beat.interrupt (b : Beat) : Beat :=
  match b.stage with
  | .waiting _ => { b with stage := .woken }
  | _ => b

/-- scheduler_preload.py:47-50 `interrupt_soon`. -/
def Beat.soon (b : Beat) : Beat :=
  match b.timer with
  | .none => { b with timer := .pending }
  | _ => b

/-- scheduler_preload.py:52-54 three seconds later. -/
def Beat.fire (b : Beat) : Beat :=
  match b.timer with
  | .pending => { b with timer := .spent }.interrupt
  | _ => b

/-- scheduler_preload.py:305-309 `_scale`. -/
def Beat.scale (b : Beat) (n : Int) : Beat := if n ≠ b.count then { b with count := n }.interrupt else b

/-- scheduler_preload.py:36-39, 249-268 `wait` ends the timer and returns, and the message is made. -/
def Beat.start (b : Beat) : Beat :=
  match b.stage with
  | .woken => { b with stage := .sending, timer := .none, sent := b.sent ++ [b.count] }
  | _ => b

/-- scheduler_preload.py:286-298 `heartbeat` has ended, in success or failure. -/
def Beat.ended (period : Rat) (b : Beat) (ok : Bool) : Beat :=
  match b.stage with
  | .sending =>
    if ok then { b with backoff := 1 / 4, stage := .waiting (heartbeatMax period) }
    else
      let k := min (b.backoff * 2) (heartbeatMax period)
      { b with backoff := k, stage := .waiting k }
  | _ => b

/-- What happens to the heartbeat loop (scheduler_preload.py:280-298). -/
inductive BOp where
  /-- a number of workers is requested (scheduler_preload.py:305-309) -/
  | scale (n : Int)
  /-- the gateway is to be told something soon (scheduler_preload.py:174-175, 184-187) -/
  | soon
  /-- scheduler_preload.py:52-54 -/
  | fire
  /-- the time to wait is over (scheduler_preload.py:30-32) -/
  | timeUp
  /-- scheduler_preload.py:249-268 -/
  | start
  /-- scheduler_preload.py:286-298 -/
  | ended (ok : Bool)
  deriving DecidableEq

/-- One step of the heartbeat loop (scheduler_preload.py:280-309). -/
def Beat.step (period : Rat) (b : Beat) : BOp → Beat
  | .scale n => b.scale n
  | .soon => b.soon
  | .fire => b.fire
  | .timeUp => b.interrupt
  | .start => b.start
  | .ended ok => b.ended period ok

/-- A history of the heartbeat loop (scheduler_preload.py:280-309). -/
def Beat.run (period : Rat) (ops : List BOp) : Beat := ops.foldl (Beat.step period) (.init period)

/-! ### The idle check -/

/-- What the idle check reads of the scheduler (scheduler_preload.py:230-239): the numbers of tasks being
processed and without a worker, the times in the transition log (latest last) and the start time. -/
structure SchedView where
  processing : Nat
  unrunnable : Nat
  log : List Rat
  started : Rat
  deriving DecidableEq

/-- scheduler_preload.py:230-246 whether a check asks for the shutdown of the cluster. -/
def idle (timeout : Rat) (v : SchedView) (now : Rat) : Bool :=
  if v.processing ≠ 0 then false
  else if v.unrunnable ≠ 0 then false
  else decide (now - (v.log.getLast?.getD v.started) > timeout)

end Verif.Sched
