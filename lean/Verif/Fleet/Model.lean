import Verif.Backend.LookProps
import Verif.Backend.Ran
import Verif.Sched.Workers
/-
The schedulers and the gateway together: the scheduler's plugin makes heartbeats from what it knows of its workers
(`dask-gateway/dask_gateway/scheduler_preload.py`, modelled in `Verif.Sched`), and the gateway's backend handles them
(`dask-gateway-server/dask_gateway_server/backends/db_base.py`, modelled in `Verif.Backend`). Until now a heartbeat was an
arbitrary message there; here it is one that a scheduler made, at some earlier time, and that was delivered, lost, or
delivered late.

Simplifications: as in the two parts. `Env.num` gives the number that stands for a worker's name in `Verif.Backend`; the
addresses in the messages of one cluster are fixed. Authorization of heartbeats is not repeated here (see `Verif.Secrets`,
`Verif.Session`). `toClose`, what the scheduler's `workers_to_close` gives, is any list of names of connected workers.
-/
namespace Verif.Fleet
open Verif.Backend (State Cfg Op Ev)

/-- What is fixed: the number of each worker name, and the addresses each scheduler reports (db_base.py:949-953, 985-999;
scheduler_preload.py:258-266). -/
structure Env where
  num : Str → Nat
  api : Nat → String
  sched : Nat → String
  dash : Nat → String

/-- A heartbeat that was made: the count and the workers in it (scheduler_preload.py:258-266). -/
structure Note where
  count : Int
  msg : Sched.Msg
  deriving DecidableEq

/-- Where the scheduler's heartbeat task is (scheduler_preload.py:248-278): not in a heartbeat, waiting for the answer to
one, or retiring workers. -/
inductive Phase where
  | quiet
  | sent (note : Note)
  | retiring (names : List Str)
  deriving DecidableEq

/-- A scheduler (scheduler_preload.py:118-158), and the heartbeats it stopped waiting for that may still arrive. -/
structure Sch where
  count : Int
  svc : Sched.Svc
  phase : Phase
  stray : List Note
  deriving DecidableEq

/-- scheduler_preload.py:132, 155-158. -/
def Sch.init : Sch := { count := 0, svc := .init, phase := .quiet, stray := [] }

/-- The gateway and the schedulers, by the number of their cluster (db_base.py:337-339; scheduler_preload.py:118-158). -/
structure World where
  gw : State
  sch : Nat → Sch

/-- No cluster yet (db_base.py:337-339). -/
def World.init : World := { gw := State.init, sch := fun _ => .init }

/-- The request's body as the gateway reads it (scheduler_preload.py:258-266, 360-371; routes.py:268-278). -/
def Env.wire (env : Env) (n : Nat) (note : Note) : Backend.Msg :=
  { api := env.api n, sched := env.sched n, dash := env.dash n, count := note.count,
    active := note.msg.active.map env.num, closing := note.msg.closing.map env.num, closed := note.msg.closed.map env.num }

/-- How the gateway takes a request: it handles it, or dies after `k` micro-actions and is started again (db_base.py:822-858,
939-1034). -/
inductive Taken where
  | whole (now : Int)
  | cut (now : Int) (k : Nat) (again : Int)
  deriving DecidableEq

/-- What happens at the gateway (db_base.py:939-1034). -/
def Taken.ev (t : Taken) (n : Nat) (m : Backend.Msg) : Ev :=
  match t with
  | .whole now => .op (.heartbeat n m now)
  | .cut now k again => .crash (.heartbeat n m now) k again

/-- Whether the gateway answers the request with success if it lives: the `assert` of db_base.py:1008 does not fail
(db_base.py:939-945, 985-1009; routes.py:268-278). -/
def answers (s : State) (n : Nat) (m : Backend.Msg) : Bool :=
  match s.find n with
  | none => true
  | some c => decide (c.row.target.n > Backend.JobStatus.running.n) || !Backend.hbRaises c m

/-- Whether the scheduler gets a successful answer: the gateway lives, the answer is a success and arrives
(scheduler_preload.py:268, 371). -/
def Taken.ok (t : Taken) (s : State) (n : Nat) (m : Backend.Msg) (answered : Bool) : Bool :=
  match t with
  | .whole _ => answered && answers s n m
  | .cut _ _ _ => false

/-- The operation is a heartbeat (db_base.py:939). -/
def isHeartbeat : Op → Bool
  | .heartbeat _ _ _ => true
  | _ => false

/-- What can happen (db_base.py:822-1384; scheduler_preload.py:106-115, 167-188, 248-309). -/
inductive Item where
  /-- anything at the gateway but heartbeats -/
  | gateway (e : Ev)
  /-- a number of workers is requested (scheduler_preload.py:305-309) -/
  | scale (n : Nat) (count : Int)
  /-- a worker connects (scheduler_preload.py:110-111) -/
  | joined (n : Nat) (addr name : Str)
  /-- a worker's connection ends (scheduler_preload.py:113-114) -/
  | left (n : Nat) (addr : Str)
  /-- a heartbeat is made (scheduler_preload.py:249-268) -/
  | make (n : Nat) (toClose : List Str)
  /-- the gateway gets it; `answered` tells whether its answer arrives (scheduler_preload.py:268) -/
  | arrive (n : Nat) (t : Taken) (answered : Bool)
  /-- the request fails without having arrived (scheduler_preload.py:268, 289-293) -/
  | lost (n : Nat)
  /-- the scheduler stops waiting, but the request may still arrive (scheduler_preload.py:371: tornado's default timeout) -/
  | gaveUp (n : Nat)
  /-- the gateway gets the `i`-th of those -/
  | late (n : Nat) (i : Nat) (t : Taken)
  /-- `retire_workers` ends, without or with an exception (scheduler_preload.py:272-278) -/
  | retired (n : Nat) (ok : Bool)
  /-- the scheduler's process is replaced by a new one -/
  | fresh (n : Nat)
  deriving DecidableEq

/-- One scheduler changes (scheduler_preload.py:118-158). -/
def World.setSch (w : World) (n : Nat) (x : Sch) : World := { w with sch := fun m => if m = n then x else w.sch m }

/-- scheduler_preload.py:249-268 the heartbeat is made; `toClose` is restricted to workers that are connected. -/
def Sch.make (x : Sch) (toClose : List Str) : Sch :=
  let closing := toClose.filter (fun y => x.svc.workers.any (fun e => e.2 == y))
  { x with phase := .sent { count := x.count, msg := x.svc.message x.count closing } }

/-- scheduler_preload.py:268-278 the request ended. -/
def Sch.answered (x : Sch) (note : Note) (ok : Bool) : Sch :=
  if ok then
    if note.msg.closing = [] then { x with phase := .quiet }
    else { x with svc := x.svc.retiring note.msg.closing, phase := .retiring note.msg.closing }
  else { x with phase := .quiet }

/-- scheduler_preload.py:272-278 `retire_workers` ended. -/
def Sch.retired (x : Sch) (names : List Str) (ok : Bool) : Sch :=
  { x with svc := if ok then x.svc else x.svc.retireFailed names, phase := .quiet }

/-- One step (db_base.py:822-1384; scheduler_preload.py:106-115, 167-188, 248-309). What cannot happen changes nothing. -/
def World.step (cfg : Cfg) (env : Env) (w : World) : Item → World
  | .gateway e => if isHeartbeat e.opOf' then w else { w with gw := w.gw.ev cfg e }
  | .scale n count => w.setSch n { w.sch n with count := count }
  | .joined n addr name => w.setSch n { w.sch n with svc := (w.sch n).svc.added addr name }
  | .left n addr => w.setSch n { w.sch n with svc := (w.sch n).svc.removed addr }
  | .make n toClose => match (w.sch n).phase with
    | .quiet => w.setSch n ((w.sch n).make toClose)
    | _ => w
  | .arrive n t answered => match (w.sch n).phase with
    | .sent note =>
      { w with gw := w.gw.ev cfg (t.ev n (env.wire n note)) }.setSch n
        ((w.sch n).answered note (t.ok w.gw n (env.wire n note) answered))
    | _ => w
  | .lost n => match (w.sch n).phase with
    | .sent _ => w.setSch n { w.sch n with phase := .quiet }
    | _ => w
  | .gaveUp n => match (w.sch n).phase with
    | .sent note => w.setSch n { w.sch n with phase := .quiet, stray := (w.sch n).stray ++ [note] }
    | _ => w
  | .late n i t => match (w.sch n).stray[i]? with
    | none => w
    | some note =>
      { w with gw := w.gw.ev cfg (t.ev n (env.wire n note)) }.setSch n
        { w.sch n with stray := (w.sch n).stray.eraseIdx i }
  | .retired n ok => match (w.sch n).phase with
    | .retiring names => w.setSch n ((w.sch n).retired names ok)
    | _ => w
  | .fresh n => w.setSch n { Sch.init with stray := (w.sch n).stray }

/-- A history (db_base.py:822-1384; scheduler_preload.py:106-115, 167-188, 248-309). -/
def run (cfg : Cfg) (env : Env) (items : List Item) : World := items.foldl (World.step cfg env) .init

end Verif.Fleet
