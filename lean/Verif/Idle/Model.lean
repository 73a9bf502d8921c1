import Verif.Boot.Model
import Verif.Sched.Props
/-
Model of how the gateway's service comes up within a scheduler and asks for the end of an idle cluster:
`dask-gateway/dask_gateway/scheduler_preload.py` (117-165, 190-247, 400-451) and the command of schedulers on
Kubernetes (`dask-gateway-server/dask_gateway_server/backends/kubernetes/controller.py` 1030-1050).

There is one clock: `loop.time()`, the times in the transition log and those of `asyncio.sleep` are the same.
-/
namespace Verif.Idle
open Verif.Sched (Activity viewAfter)

/-! ### Options -/

/-- What the command line says about the service (scheduler_preload.py:401-430). -/
structure Opts where
  adaptivePeriod : Rat
  heartbeatPeriod : Rat
  idleTimeout : Rat
  apiAddress : Str
deriving DecidableEq

/-- scheduler_preload.py:403, 409, 418, 424 the defaults -/
def Opts.default : Opts := { adaptivePeriod := 3, heartbeatPeriod := 15, idleTimeout := 0, apiAddress := ":0".toList }

/-- scheduler_preload.py:401-427: one option with its value; `float` is Python's, `none` a usage error. -/
def Opts.set (float : Str → Option Rat) (o : Opts) (name value : Str) : Option Opts :=
  if name = "--dg-adaptive-period".toList then (float value).map (fun x => { o with adaptivePeriod := x })
  else if name = "--dg-heartbeat-period".toList then (float value).map (fun x => { o with heartbeatPeriod := x })
  else if name = "--dg-idle-timeout".toList then (float value).map (fun x => { o with idleTimeout := x })
  else if name = "--dg-api-address".toList then some { o with apiAddress := value }
  else none

/-- `click` on the options of `dask_setup` (scheduler_preload.py:400-427), each followed by its value; `none` is a usage
error. Options written with `=` are not covered (they are refused here). -/
def parse (float : Str → Option Rat) (o : Opts) : List Str → Option Opts
  | [] => some o
  | [_] => none
  | name :: value :: l =>
    match o.set float name value with
    | none => none
    | some o => parse float o l

/-- The words of its command line that a scheduler of `distributed` does not know, which it hands on to `dask_setup`
(scheduler_preload.py:400). `known w`: the word is an option of the scheduler itself, with a value or without. -/
def leftover (known : Str → Option Bool) : List Str → List Str
  | [] => []
  | [w] =>
    match known w with
    | none => [w]
    | some _ => []
  | w :: v :: l =>
    match known w with
    | none => w :: leftover known (v :: l)
    | some true => leftover known l
    | some false => leftover known (v :: l)

/-- controller.py:1030-1050 `get_scheduler_command` on Kubernetes; numbers as the text Python prints. -/
def kubeSchedulerCommand (cmd : List Str) (adaptivePeriod idleTimeout : Str) : List Str :=
  cmd ++
    ["--protocol".toList, "tls".toList, "--host".toList, [], "--port".toList, "8786".toList,
     "--dashboard-address".toList, ":8787".toList, "--dg-api-address".toList, ":8788".toList,
     "--preload".toList, "dask_gateway.scheduler_preload".toList,
     "--dg-heartbeat-period".toList, "0".toList, "--dg-adaptive-period".toList, adaptivePeriod,
     "--dg-idle-timeout".toList, idleTimeout]

/-! ### The start of the service -/

/-- scheduler_preload.py:117-165, 202-214: the service after `listen`. -/
structure Service where
  client : Boot.Client
  adaptivePeriod : Rat
  /-- 133 -/
  heartbeatPeriod : Rat
  /-- 134-140 -/
  heartbeatMax : Rat
  heartbeatInitial : Rat
  /-- 143 -/
  idleTimeout : Rat
  /-- 204: where it listens. -/
  host : Str
  port : Nat
  /-- 210: the address it reports. -/
  apiAddress : Str
  /-- 212-213: whether the check of idleness runs. -/
  checking : Bool
deriving DecidableEq

/-- What becomes of the scheduler (scheduler_preload.py:428-451). -/
inductive Outcome where
  /-- A usage error of `click`. -/
  | usage
  /-- 436, 449 and 386 -/
  | exit1
  /-- 451: the service is registered. -/
  | serving (s : Service)
deriving DecidableEq

/-- What the scheduler process finds where it runs (scheduler_preload.py:423-451). -/
structure Host where
  env : List (Str × Str)
  files : Str → Option Str
  /-- The result of listening at a host and a port: the port, or an error (scheduler_preload.py:204-207). -/
  bind : Str → Int → Option Nat
  /-- The address of the scheduler itself (scheduler_preload.py:209). -/
  address : Str

/-- `f"http://{host}:{port}"` (scheduler_preload.py:196-198, 209-210); `none` for an error of `urlparse`. -/
def httpAddress (address : Str) (port : Nat) : Option Str :=
  (Addr.urlparse address).map fun u =>
    "http://".toList ++ Addr.showHost (Addr.hostname u.netloc) ++ ':' :: Nat.toDigits 10 port

/-- scheduler_preload.py:190-200 `dashboard_address`; `dashboard`: the port of the dashboard if there is one. -/
def dashboardAddress (address : Str) (dashboard : Option Nat) : Option Str :=
  match dashboard with
  | none => some []
  | some p => httpAddress address p

/-- scheduler_preload.py:428-451 `dask_setup` with what it was given on the command line. -/
def daskSetup (float : Str → Option Rat) (h : Host) (argv : List Str) : Outcome :=
  match parse float .default argv with
  | none => .usage
  | some o =>
    match Api.splitAll ':' o.apiAddress with
    | [host, p] =>
      match Boot.pyInt p with
      | none => .exit1
      | some p =>
        match Boot.makeClient h.env h.files with
        | none => .exit1
        | some client =>
          match h.bind host p with
          | none => .exit1
          | some port =>
            match httpAddress h.address port with
            | none => .exit1
            | some api =>
              .serving
                { client := client, adaptivePeriod := o.adaptivePeriod, heartbeatPeriod := max 0 o.heartbeatPeriod,
                  heartbeatMax := Sched.heartbeatMax o.heartbeatPeriod,
                  heartbeatInitial := Sched.heartbeatInitial o.heartbeatPeriod,
                  idleTimeout := max 0 o.idleTimeout, host := host, port := port, apiAddress := api,
                  checking := decide (max 0 o.idleTimeout > 0) }
    | _ => .exit1

/-! ### The check of idleness -/

/-- The scheduler as the check finds it (scheduler_preload.py:230-239): its activity, the number of entries its log keeps,
and when it started. -/
structure World where
  keep : Nat
  started : Rat
  activity : List Activity

/-- What the check finds at a time: what has happened until then (scheduler_preload.py:230-239). -/
def World.view (w : World) (t : Rat) : Sched.SchedView :=
  viewAfter w.keep w.started (w.activity.filter (fun a => a.time ≤ t))

/-- One turn of the loop: how late it is woken up, and how long its request takes and how it ends, if it makes one
(scheduler_preload.py:229, 247). -/
structure Round where
  late : Rat
  took : Rat
  ok : Bool
deriving DecidableEq

/-- What happens to the loop (scheduler_preload.py:216-225, 227-247). -/
inductive Ev where
  | round (r : Round)
  /-- 216-225: the scheduler stops. -/
  | stop
deriving DecidableEq

/-- The loop (scheduler_preload.py:227-247): whether it runs, since when it sleeps, and the requests for the end of the
cluster it made, with their times and results. -/
structure Loop where
  running : Bool
  since : Rat
  asked : List (Rat × Bool)
deriving DecidableEq

/-- scheduler_preload.py:212-213: the start, at a time. -/
def Loop.init (s : Service) (begun : Rat) : Loop := { running := s.checking, since := begun, asked := [] }

/-- scheduler_preload.py:228-247: one turn of the loop. A request that fails raises, which ends the task. -/
def Loop.round (timeout : Rat) (w : World) (l : Loop) (r : Round) : Loop :=
  let t := l.since + timeout / 4 + r.late
  if Sched.idle timeout (w.view t) t then
    { running := r.ok, since := t + r.took, asked := l.asked ++ [(t, r.ok)] }
  else { l with since := t }

/-- One step (scheduler_preload.py:216-247). -/
def Loop.step (timeout : Rat) (w : World) (l : Loop) : Ev → Loop
  | .stop => { l with running := false }
  | .round r => if l.running then l.round timeout w r else l

/-- A history of the loop of a service (scheduler_preload.py:202-247). -/
def runLoop (s : Service) (w : World) (begun : Rat) (evs : List Ev) : Loop :=
  evs.foldl (Loop.step s.idleTimeout w) (.init s begun)

end Verif.Idle
