import Verif.Json
/-
Model of a cluster object of the client that is used by several tasks at once: `dask-gateway/dask_gateway/client.py`
(870-1048), `dask-gateway/dask_gateway/utils.py` (11-16).

Here the start and the stop of the object are tasks of their own, which all callers wait for, and every `await` is a point at
which any other task may go on, and at which a caller may be cancelled. The cancellation of a task that waits for
another one cancels that one, as in asyncio; if that one has ended already, the first one gets the `CancelledError`
when it goes on. In synchronous mode the callers are threads, and an interrupt (Ctrl-C) cancels the call (client.py:340-347).

Left out: the session of the gateway (client.py:357-360, 1002), which is closed after the last step of a stop.
-/
namespace Verif.Concurrent

/-- client.py:883, 919, 947, 961, 1010, 1020 `status` -/
inductive Status where
  | created | starting | running | closing | closed
  deriving DecidableEq

/-- Where the task of the start is (client.py:913, 931-961): there is none; it has not begun; in one of its three waits; or how it
has ended. -/
inductive StartPc where
  | none | pending | submitting | waiting | connecting | ok | raised | cancelled
  deriving DecidableEq

/-- Where the task of the stop is (client.py:914, 980-1020): there is none; it has not begun; it waits for the end of the start, of the
task that watches the workers, of the connections; or how it has ended. -/
inductive StopPc where
  | none | pending | starting | watching | closing | done | raised | cancelled
  deriving DecidableEq

/-- client.py:933: the task has not ended -/
def StartPc.live : StartPc → Bool
  | .pending | .submitting | .waiting | .connecting => true
  | _ => false

/-- client.py:985: the task has not ended -/
def StopPc.live : StopPc → Bool
  | .pending | .starting | .watching | .closing => true
  | _ => false

/-- What a caller called: `await cluster` (client.py:1022-1026), or `close(shutdown=…)` (client.py:1031-1046). -/
inductive Kind where
  | start
  | close (shutdown : Option Bool)
  deriving DecidableEq

/-- How a call ended: it returned; it raised the exception of the start; it raised `CancelledError`, in a start possibly before
the cleanup was over (client.py:931-941, 980-1002). -/
inductive Result where
  | returned | raised | cancelled
  deriving DecidableEq

/-- Where a caller is: at client.py:935, 985 or 994 (`must`: it was cancelled after the task it waits for had ended), or at
the end. -/
inductive At where
  | start (must : Bool)
  | stop (must : Bool)
  | request
  | ended (r : Result)
  deriving DecidableEq

/-- A call (client.py:931, 980). -/
structure Caller where
  kind : Kind
  pos : At
  deriving DecidableEq

/-- The object, the calls and what the server has got (client.py:783-824, 843-1029). -/
structure Obj where
  /-- client.py:885 -/
  shutdownOnClose : Bool
  status : Status
  /-- client.py:913, 948 -/
  name : Option Str
  start : StartPc
  startCancel : Bool
  stop : StopPc
  stopCancel : Bool
  /-- whether the object is among those that are closed at exit (client.py:887, 981) -/
  lingering : Bool
  callers : Nat → Option Caller
  /-- the number of submissions sent (client.py:948) -/
  submits : Nat
  /-- the cluster that the server created for it -/
  created : Option Str
  /-- the requests to stop a cluster that were sent (client.py:994) -/
  stops : List Str

/-- client.py:870-919: a new object, with the name of a cluster or without. -/
def Obj.new (shutdownOnClose : Bool) (name : Option Str) : Obj where
  shutdownOnClose := shutdownOnClose
  status := if name.isSome then .starting else .created
  name := name
  start := .none
  startCancel := false
  stop := .none
  stopCancel := false
  lingering := true
  callers := fun _ => none
  submits := 0
  created := none
  stops := []

/-- What may happen, in any order (client.py:843-1029); `good` tells that what a task waited for came without an exception. -/
inductive Op where
  | callStart (k : Nat)
  | callClose (k : Nat) (shutdown : Option Bool)
  | cancel (k : Nat)
  | resume (k : Nat)
  | serve (n : Str)
  | stepStart (good : Bool)
  | stepStop (watch good : Bool)
  deriving DecidableEq

/-- A caller is set (client.py:931, 980). -/
def Obj.setCaller (o : Obj) (k : Nat) (c : Caller) : Obj :=
  { o with callers := fun x => if x = k then some c else o.callers x }

/-- client.py:932-935: a call of the start, up to the first wait. -/
def Obj.callStart (o : Obj) (k : Nat) : Obj :=
  match o.callers k with
  | some _ => o
  | none => ({ o with start := if o.start = .none then .pending else o.start } : Obj).setCaller k ⟨.start, .start false⟩

/-- client.py:981-985: `_stop_internal` up to the first wait. -/
def Obj.enterStop (o : Obj) (k : Nat) (kind : Kind) : Obj :=
  ({ o with lingering := false, stop := if o.stop = .none then .pending else o.stop } : Obj).setCaller k ⟨kind, .stop false⟩

/-- client.py:1031-1043: a call of `close`. -/
def Obj.callClose (o : Obj) (k : Nat) (shutdown : Option Bool) : Obj :=
  match o.callers k with
  | some _ => o
  | none => o.enterStop k (.close shutdown)

/-- A caller is cancelled (client.py:340-347, 935, 985, 994). -/
def Obj.cancel (o : Obj) (k : Nat) : Obj :=
  match o.callers k with
  | some ⟨kind, .start _⟩ =>
    if o.start.live then { o with startCancel := true } else o.setCaller k ⟨kind, .start true⟩
  | some ⟨kind, .stop _⟩ =>
    if o.stop.live then { o with stopCancel := true } else o.setCaller k ⟨kind, .stop true⟩
  | some ⟨kind, .request⟩ => o.setCaller k ⟨kind, .ended .cancelled⟩
  | _ => o

/-- client.py:989-990, 992: whether the caller is to shut the cluster down. -/
def Obj.wants (o : Obj) : Kind → Bool
  | .start => o.shutdownOnClose
  | .close shutdown => shutdown.getD o.shutdownOnClose

/-- client.py:938-941, 1002: how a call ends after the stop. -/
def Kind.result : Kind → Result
  | .start => .raised
  | .close _ => .returned

/-- client.py:986-994: after the wait for the stop. -/
def Obj.afterStop (o : Obj) (k : Nat) (kind : Kind) : Obj :=
  match o.wants kind, o.name with
  | true, some n => { o with stops := o.stops ++ [n] }.setCaller k ⟨kind, .request⟩
  | _, _ => o.setCaller k ⟨kind, .ended kind.result⟩

/-- A caller goes on, if what it waits for has ended (client.py:935-941, 985-1002). Exceptions of the stop and of the request are
logged (client.py:986-987, 995-1000). -/
def Obj.resume (o : Obj) (k : Nat) : Obj :=
  match o.callers k with
  | some ⟨kind, .start must⟩ =>
    if o.start.live then o
    else if must = false ∧ o.start = .ok then o.setCaller k ⟨kind, .ended .returned⟩
    else o.enterStop k kind
  | some ⟨kind, .stop must⟩ =>
    if o.stop.live then o
    else if must = true ∨ o.stop = .cancelled then o.setCaller k ⟨kind, .ended .cancelled⟩
    else o.afterStop k kind
  | some ⟨kind, .request⟩ => o.setCaller k ⟨kind, .ended kind.result⟩
  | _ => o

/-- The server handles the submission, once (client.py:948). -/
def Obj.serve (o : Obj) (n : Str) : Obj :=
  if o.submits ≠ 0 ∧ o.created = none then { o with created := some n } else o

/-- client.py:943-961 `_start_async`: the task goes on. -/
def Obj.stepStart (o : Obj) (good : Bool) : Obj :=
  if o.start.live = false then o
  else if o.startCancel then { o with start := .cancelled }
  else
    match o.start with
    | .pending =>
      if o.status = .closing ∨ o.status = .closed then { o with start := .ok }
      else if o.status = .created then { o with status := .starting, submits := o.submits + 1, start := .submitting }
      else { o with start := .waiting }
    | .submitting =>
      if good = false then { o with start := .raised }
      else
        match o.created with
        | none => o
        | some n => { o with name := some n, start := .waiting }
    | .waiting => { o with start := if good then .connecting else .raised }
    | .connecting => if good then { o with status := .running, start := .ok } else { o with start := .raised }
    | _ => o

/-- client.py:1010-1012: the stop goes on after the start has ended; `watch` tells that there is a task that watches the
workers. -/
def Obj.beginClosing (o : Obj) (watch : Bool) : Obj :=
  { o with status := .closing, stop := if watch then .watching else .closing }

/-- client.py:1004-1020 `_stop_async`: the task goes on. The waits in `cancel_task` swallow a cancellation
(utils.py:13-16). -/
def Obj.stepStop (o : Obj) (watch good : Bool) : Obj :=
  match o.stop with
  | .pending =>
    if o.stopCancel then { o with stop := .cancelled }
    else if o.start.live then { o with startCancel := true, stop := .starting }
    else o.beginClosing watch
  | .starting => if o.start.live then o else { o with stopCancel := false }.beginClosing watch
  | .watching => { o with stopCancel := false, stop := if good then .closing else .raised }
  | .closing =>
    if o.stopCancel then { o with stop := .cancelled }
    else if good then { o with status := .closed, stop := .done }
    else { o with stop := .raised }
  | _ => o

/-- One of these (client.py:870-1048). -/
def Obj.step (o : Obj) : Op → Obj
  | .callStart k => o.callStart k
  | .callClose k shutdown => o.callClose k shutdown
  | .cancel k => o.cancel k
  | .resume k => o.resume k
  | .serve n => o.serve n
  | .stepStart good => o.stepStart good
  | .stepStop watch good => o.stepStop watch good

/-- Any number of them (client.py:870-1048). -/
def Obj.run (o : Obj) (ops : List Op) : Obj := ops.foldl Obj.step o

end Verif.Concurrent
