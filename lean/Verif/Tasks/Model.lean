/-
Model of the tasks that run in the background of the gateway, of the controller and of schedulers, as programs in a small
language with awaits, exceptions and cancellation: dask-gateway-server/dask_gateway_server/backends/db_base.py:1037-1190,
dask-gateway-server/dask_gateway_server/backends/kubernetes/controller.py:482-501, 583-606,
dask-gateway-server/dask_gateway_server/backends/kubernetes/backend.py:537-551,
dask-gateway-server/dask_gateway_server/backends/kubernetes/utils.py:54-66, 141-203,
dask-gateway-server/dask_gateway_server/proxy/core.py:241-265, dask-gateway/dask_gateway/scheduler_preload.py:23-40, 227-357,
dask-gateway-server/dask_gateway_server/utils.py:19-35.

Simplified: what is awaited is one call, however many awaits it has inside, and may end in any way; calls that only count,
compare or log are left out.
-/
namespace Verif.Tasks

/-- What the tasks do (the lines are with the programs below; db_base.py:1037-1190). -/
inductive Call where
  | sleep | checkTimeouts | checkClusters | updateClusters | checkWorkers | updateWorkers | cleanupDb
  | get | reconcile | sync | putBackoff | resetBackoff | taskDone | requeued
  | expired | deleteExpired
  | list | takeInitial | openWatch | nextEvent | lineRead | badEvent | handle
  | exited | startProxy
  | busy | idle | shutdown | wait | triggered | heartbeat | adaptTarget | more | scale
deriving DecidableEq, Repr

/-- Exceptions: `Exception`, `WorkQueueClosed` (workqueue.py:38), which is an `Exception` too, and `CancelledError`, which is
not (Python 3.10 and later). -/
inductive Exc where
  | error
  | closed
  | cancelled
deriving DecidableEq, Repr

/-- Programs (db_base.py:1037-1190): the statements of Python that the tasks use. -/
inductive Prog where
  | skip
  /-- an await that only ends well or by cancellation -/
  | pause (c : Call)
  /-- an await of something that may fail -/
  | await (c : Call)
  /-- an await of the next item of a queue: it ends well, by cancellation or as the queue is closed -/
  | take (c : Call)
  /-- a call that is not awaited and may fail -/
  | sync (c : Call)
  /-- a call that is not awaited and does not fail -/
  | act (c : Call)
  | raise (e : Exc)
  | ret
  | brk
  | cont
  | seq (a b : Prog)
  /-- `if`, on something that the model does not know -/
  | ite (c : Call) (a b : Prog)
  /-- `while True` -/
  | forever (b : Prog)
  /-- `try`, with what is done for `CancelledError`, for `WorkQueueClosed` and for other exceptions -/
  | guard (b : Prog) (cancelled closed error orelse fin : Prog)
deriving Repr

/-- How an await ends (asyncio). -/
inductive Out where
  | ok
  | fails (e : Exc)
deriving DecidableEq, Repr

/-- How a program ended, or where it waits (db_base.py:1037-1190). `spins` is a loop that never waits. -/
inductive Res where
  | waits (c : Call)
  | fell
  | raised (e : Exc)
  | returned
  | broke
  | continued
  | spins
deriving DecidableEq, Repr

/-- What happens to a task: how the things it awaits end, each with how the calls and conditions up to the next await turn
out (db_base.py:1037-1190). -/
structure St where
  data : List Bool
  evs : List (Out × List Bool)
deriving DecidableEq, Repr

/-- What a task did: calls and how they ended (db_base.py:1037-1190). -/
abbrev Trace := List (Call × Out)

/-- The result of running a program (db_base.py:1037-1190). -/
structure R where
  res : Res
  st : St
  tr : Trace
deriving DecidableEq, Repr

/-- An await (asyncio). -/
def doAwait (c : Call) (st : St) : R :=
  match st.evs with
  | [] => ⟨.waits c, st, []⟩
  | (.ok, d) :: evs => ⟨.fell, ⟨d, evs⟩, [(c, .ok)]⟩
  | (.fails e, d) :: evs => ⟨.raised e, ⟨d, evs⟩, [(c, .fails e)]⟩

/-- An await that does not fail on its own (asyncio). -/
def doPause (c : Call) (st : St) : R :=
  match st.evs with
  | [] => ⟨.waits c, st, []⟩
  | (.fails .cancelled, d) :: evs => ⟨.raised .cancelled, ⟨d, evs⟩, [(c, .fails .cancelled)]⟩
  | (_, d) :: evs => ⟨.fell, ⟨d, evs⟩, [(c, .ok)]⟩

/-- An await of the next item of a queue (workqueue.py:75-88). -/
def doTake (c : Call) (st : St) : R :=
  match st.evs with
  | [] => ⟨.waits c, st, []⟩
  | (.fails .cancelled, d) :: evs => ⟨.raised .cancelled, ⟨d, evs⟩, [(c, .fails .cancelled)]⟩
  | (.fails .closed, d) :: evs => ⟨.raised .closed, ⟨d, evs⟩, [(c, .fails .closed)]⟩
  | (_, d) :: evs => ⟨.fell, ⟨d, evs⟩, [(c, .ok)]⟩

/-- A call that is not awaited (asyncio). Those in `calm` do not fail; conditions in `calm` do not hold. -/
def doSync (calm : Call → Bool) (c : Call) (st : St) : R :=
  if calm c then ⟨.fell, st, [(c, .ok)]⟩
  else match st.data with
    | false :: d => ⟨.raised .error, ⟨d, st.evs⟩, [(c, .fails .error)]⟩
    | d => ⟨.fell, ⟨d.drop 1, st.evs⟩, [(c, .ok)]⟩

/-- After something that was done before (asyncio). -/
def R.after (tr : Trace) (r : R) : R := { r with tr := tr ++ r.tr }

/-- `while True` (Python), for at most `n` turns. -/
def doLoop (f : St → R) (n : Nat) (st : St) : R :=
  match n with
  | 0 => ⟨.spins, st, []⟩
  | n + 1 =>
    match (f st).res with
    | .fell | .continued =>
      if (f st).st.evs.length < st.evs.length then (doLoop f n (f st).st).after (f st).tr
      else ⟨.spins, (f st).st, (f st).tr⟩
    | .broke => { f st with res := .fell }
    | _ => f st

/-- `finally` (Python). -/
def doFinally (fin : St → R) (r : R) : R :=
  match r.res with
  | .waits _ | .spins => r
  | res =>
    match (fin r.st).res with
    | .fell => { (fin r.st).after r.tr with res := res }
    | _ => (fin r.st).after r.tr

/-- What is done for an exception (Python). -/
def pick (cancelled closed error : St → R) : Exc → St → R
  | .cancelled => cancelled
  | .closed => closed
  | .error => error

/-- `try` without `finally` (Python). -/
def doTry (h : Exc → St → R) (orelse : St → R) (r : R) : R :=
  match r.res with
  | .raised e => (h e r.st).after r.tr
  | .fell => (orelse r.st).after r.tr
  | _ => r

/-- Running a program until it ends or waits for what is not known yet (Python, asyncio). -/
def exec (calm : Call → Bool) : Prog → St → R
  | .skip, st => ⟨.fell, st, []⟩
  | .pause c, st => doPause c st
  | .await c, st => doAwait c st
  | .take c, st => doTake c st
  | .sync c, st => doSync calm c st
  | .act c, st => ⟨.fell, st, [(c, .ok)]⟩
  | .raise e, st => ⟨.raised e, st, []⟩
  | .ret, st => ⟨.returned, st, []⟩
  | .brk, st => ⟨.broke, st, []⟩
  | .cont, st => ⟨.continued, st, []⟩
  | .seq a b, st =>
    match (exec calm a st).res with
    | .fell => (exec calm b (exec calm a st).st).after (exec calm a st).tr
    | _ => exec calm a st
  | .ite c a b, st =>
    if calm c then exec calm b st
    else match st.data with
      | false :: d => exec calm b ⟨d, st.evs⟩
      | d => exec calm a ⟨d.drop 1, st.evs⟩
  | .forever b, st => doLoop (exec calm b) (st.evs.length + 1) st
  | .guard b ca cl er orelse fin, st =>
    doFinally (exec calm fin) (doTry (pick (exec calm ca) (exec calm cl) (exec calm er)) (exec calm orelse) (exec calm b st))

/-! ### The tasks -/

/-- Statements one after the other (Python). -/
def block : List Prog → Prog
  | [] => .skip
  | [a] => a
  | a :: l => .seq a (block l)

/-- `try` (Python): an exception without a handler goes on; `WorkQueueClosed` is an `Exception`, so without a handler of its
own it is handled as such. -/
def attempt (b : Prog) (cancelled closed error : Option Prog) (orelse fin : Prog) : Prog :=
  .guard b (cancelled.getD (.raise .cancelled)) (closed.getD (error.getD (.raise .closed))) (error.getD (.raise .error)) orelse fin

/-- db_base.py:1037-1048 `check_timeouts_loop`. -/
def checkTimeoutsLoop : Prog :=
  .forever (block [.pause .sleep,
    attempt (.await .checkTimeouts) (some (.raise .cancelled)) none (some .skip) .skip .skip])

/-- db_base.py:1085-1110 `check_clusters_loop`. -/
def checkClustersLoop : Prog :=
  .forever (block [.pause .sleep,
    attempt (block [.await .checkClusters, .sync .updateClusters]) (some (.raise .cancelled)) none (some .skip) .skip .skip])

/-- db_base.py:1112-1144 `check_workers_loop`. -/
def checkWorkersLoop : Prog :=
  .forever (block [.pause .sleep,
    attempt (block [.await .checkWorkers, .sync .updateWorkers]) (some (.raise .cancelled)) none (some .skip) .skip .skip])

/-- db_base.py:1146-1156 `cleanup_db_loop`. -/
def cleanupDbLoop : Prog :=
  .forever (block [attempt (.sync .cleanupDb) none none (some .skip) .skip .skip, .pause .sleep])

/-- db_base.py:1158-1190 `reconciler_loop`. Simplified: `put_backoff` is taken not to fail; see `reconcilerLoopF`. -/
def reconcilerLoop : Prog :=
  .forever (block [attempt (.take .get) none (some .ret) none .skip .skip,
    attempt (.await .reconcile) none none (some (.act .putBackoff)) (.act .resetBackoff) (.act .taskDone)])

/-- kubernetes/controller.py:583-606 `reconciler_loop`. Simplified: `put_backoff` is taken not to fail; see
`kubeReconcilerLoopF`. -/
def kubeReconcilerLoop : Prog :=
  .forever (block [attempt (.take .get) none (some .ret) none .skip .skip,
    attempt (.await .reconcile) none none (some (.act .putBackoff))
      (.ite .requeued (.act .putBackoff) (.act .resetBackoff)) (.act .taskDone)])

/-- kubernetes/backend.py:537-551 `sync_clusters_loop`. Simplified: `put_backoff` is taken not to fail; see
`syncClustersLoopF`. -/
def syncClustersLoop : Prog :=
  .forever (block [attempt (.take .get) none (some .ret) none .skip .skip,
    attempt (.await .sync) none none (some (.act .putBackoff)) (.act .resetBackoff) (.act .taskDone)])

/-- db_base.py:1158-1190 `reconciler_loop`, with a `put_backoff` that may raise (workqueue.py:26, 131-137: `OverflowError`
after 1024 failures in succession, `Verif.WorkQueue.C06_floats_partial`). -/
def reconcilerLoopF : Prog :=
  .forever (block [attempt (.take .get) none (some .ret) none .skip .skip,
    attempt (.await .reconcile) none none (some (.sync .putBackoff)) (.act .resetBackoff) (.act .taskDone)])

/-- kubernetes/controller.py:583-606 `reconciler_loop`, with a `put_backoff` that may raise. -/
def kubeReconcilerLoopF : Prog :=
  .forever (block [attempt (.take .get) none (some .ret) none .skip .skip,
    attempt (.await .reconcile) none none (some (.sync .putBackoff))
      (.ite .requeued (.sync .putBackoff) (.act .resetBackoff)) (.act .taskDone)])

/-- kubernetes/backend.py:537-551 `sync_clusters_loop`, with a `put_backoff` that may raise. -/
def syncClustersLoopF : Prog :=
  .forever (block [attempt (.take .get) none (some .ret) none .skip .skip,
    attempt (.await .sync) none none (some (.sync .putBackoff)) (.act .resetBackoff) (.act .taskDone)])

/-- kubernetes/controller.py:482-501 `cleanup_expired_cluster_records_loop`. -/
def cleanupExpiredLoop : Prog :=
  .forever (block [attempt (.ite .expired (.await .deleteExpired) .skip) (some (.raise .cancelled)) none (some .skip) .skip .skip,
    .pause .sleep])

/-- kubernetes/utils.py:54-66, 169-193: the events of one watch, up to its end or an error event. -/
def watchOnce : Prog :=
  block [.await .openWatch,
    .forever (block [.await .nextEvent, .ite .lineRead .skip .brk, .ite .badEvent .brk (.sync .handle)])]

/-- kubernetes/utils.py:141-203 `Informer.run`. -/
def informerRun : Prog :=
  .forever (block [attempt (.await .list) (some (.raise .cancelled)) none (some .cont) .skip .skip,
    .sync .takeInitial,
    attempt (.forever (block [watchOnce, .ite .badEvent .brk .skip])) (some (.raise .cancelled)) none (some .skip) .skip .skip])

/-- proxy/core.py:241-265 `monitor_proxy_process`. -/
def monitorLoop : Prog :=
  .forever (block [.ite .exited (attempt (.sync .startProxy) none none (some (block [.pause .sleep, .cont])) .skip .skip) .skip,
    .pause .sleep])

/-- scheduler_preload.py:227-247 `check_idle`. -/
def checkIdleLoop : Prog :=
  .forever (block [.pause .sleep, .ite .busy .cont .skip, .ite .idle (.await .shutdown) .skip])

/-- scheduler_preload.py:28-40 `Waiter.wait`: a cancellation is taken for an interruption if there is one. -/
def waiterWait : Prog :=
  attempt (.pause .wait) (some (.ite .triggered .skip (.raise .cancelled))) none none .skip .skip

/-- scheduler_preload.py:281-298 `heartbeat_loop`. -/
def heartbeatLoop : Prog :=
  .forever (block [waiterWait, attempt (.await .heartbeat) (some .brk) none (some .skip) .skip .skip])

/-- scheduler_preload.py:41-45, utils.py:11-16 `Waiter.interrupt`, `cancel_task`: the sleep is cancelled and waited for; any
cancellation that comes out of this is taken for that of the sleep. -/
def waiterInterrupt : Prog :=
  attempt (.pause .scale) (some .skip) none none .skip .skip

/-- scheduler_preload.py:305-309, 328-352 `adapt_loop`. -/
def adaptLoop : Prog :=
  .forever (block [attempt (block [.sync .adaptTarget, .ite .more waiterInterrupt .skip]) (some .brk) none (some .skip) .skip .skip,
    .pause .sleep])

/-! ### Pools of tasks -/

/-- A task: its program and what happened to it so far (utils.py:24-27 `TaskPool.spawn`). -/
structure Task where
  prog : Prog
  st : St
deriving Repr

/-- Where a task is (asyncio). -/
def Task.now (calm : Call → Bool) (t : Task) : Res := (exec calm t.prog t.st).res

/-- Something happens to a task, of those that are not done (asyncio); `cancel` of a task that is done does nothing. -/
def Task.tell (calm : Call → Bool) (t : Task) (e : Out × List Bool) : Task :=
  match t.now calm with
  | .waits _ => { t with st := { t.st with evs := t.st.evs ++ [e] } }
  | _ => t

/-- utils.py:29-33 `TaskPool.close`: all tasks are cancelled, `d` is what they then meet; it goes on when all of them are
done, however they end. -/
def close (calm : Call → Bool) (pool : List Task) (d : Task → List Bool) : List Task :=
  pool.map (fun t => t.tell calm (.fails .cancelled, d t))

end Verif.Tasks
