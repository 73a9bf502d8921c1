/-
Model of how the gateway starts, watches and stops the proxy process:
`dask-gateway-server/dask_gateway_server/proxy/core.py` (`start_proxy_process` 221-241,
`monitor_proxy_process` 243-265, `setup` 267-276, `_on_shutdown` 291-293, `cleanup` 295-300), and the end of
the proxy process with its standard input: `dask-gateway-server/dask-gateway-proxy/cmd/dask-gateway-proxy/main.go`
(`awaitShutdown` 116-124, `run` 126-129).

Times are whole milliseconds. The steps of the gateway between two waits are not interrupted (asyncio). The proxy
is not externally managed. The operating system closes the pipes of a process that ends; a process that
receives SIGTERM ends.
-/
namespace Verif.Supervise

/-- A proxy process that was started (core.py:225-232), and what it has been told. -/
structure Proc where
  /-- The time it ended, if it has (what `poll` looks at, core.py:246). -/
  died : Option Nat
  /-- It was sent SIGTERM (core.py:300). -/
  signalled : Bool
  /-- The other end of its standard input is open (core.py:228). -/
  stdin : Bool
deriving DecidableEq, Repr

/-- The monitoring task (core.py:243-265) while it sleeps. -/
structure Monitor where
  /-- When the sleep ends (core.py:260, 265). -/
  due : Nat
  /-- The local variable `backoff` (core.py:244). -/
  backoff : Nat
deriving DecidableEq, Repr

/-- The state: `procs` lists the processes that were started, the newest first; the newest is
`self.proxy_process` (core.py:233). -/
structure State where
  now : Nat
  procs : List Proc
  /-- The task in the task pool, if it is not cancelled (core.py:276). -/
  monitor : Option Monitor
  /-- The gateway's process is there. -/
  up : Bool
deriving DecidableEq, Repr

/-- core.py:244 `default_backoff`, in milliseconds. -/
def defaultBackoff : Nat := 500

/-- core.py:261, the largest backoff in milliseconds. -/
def maxBackoff : Nat := 15000

/-- core.py:225-233: a new process. -/
def Proc.fresh : Proc := { died := none, signalled := false, stdin := true }

/-- What happens: the steps of core.py:221-300 and of main.go:116-129, and what the operating system does. -/
inductive Op where
  /-- Time passes. -/
  | wait (ms : Nat)
  /-- Process number `i` (the newest is 0) ends by itself. -/
  | exits (i : Nat)
  /-- The monitoring task runs, if its sleep is over; `ok`: starting a process works. -/
  | wake (ok : Bool)
  /-- core.py:292, 297 `task_pool.close()`. -/
  | close
  /-- core.py:298-300: `terminate`. -/
  | terminate
  /-- The gateway's process ends, in whatever way. -/
  | ends
  /-- Process number `i` gets to read its standard input (main.go:116-124) or its signal. -/
  | reads (i : Nat)
deriving DecidableEq, Repr

/-- Change of one process in the list (one `Popen` object of core.py:225-232). -/
def modify (f : Proc → Proc) : Nat → List Proc → List Proc
  | _, [] => []
  | 0, p :: ps => f p :: ps
  | i + 1, p :: ps => p :: modify f i ps

/-- A process ends, unless it has (core.py:246). -/
def Proc.die (t : Nat) (p : Proc) : Proc :=
  { died := match p.died with | some d => some d | none => some t, signalled := p.signalled, stdin := p.stdin }

/-- main.go:116-124: the process ends if its input is at its end; it also ends by SIGTERM (core.py:300). -/
def Proc.read (t : Nat) (p : Proc) : Proc := if p.signalled ∨ p.stdin = false then p.die t else p

/-- core.py:245-265: one round of the loop, at time `now`. -/
def check (period now : Nat) (ok : Bool) (procs : List Proc) (m : Monitor) : List Proc × Monitor :=
  match procs with
  | [] => (procs, m)
  | p :: _ =>
    if p.died.isSome then
      if ok then (Proc.fresh :: procs, { due := now + period, backoff := defaultBackoff })            -- 253, 264-265
      else (procs, { due := now + m.backoff, backoff := min (m.backoff * 2) maxBackoff })             -- 255-262
    else (procs, { due := now + period, backoff := defaultBackoff })                                  -- 264-265

/-- One event (core.py:243-300, main.go:116-124). -/
def State.step (period : Nat) (s : State) : Op → State
  | .wait ms => { s with now := s.now + ms }
  | .exits i => { s with procs := modify (Proc.die s.now) i s.procs }
  | .wake ok =>
    match s.up, s.monitor with
    | true, some m =>
      if s.now < m.due then s
      else
        { now := s.now, procs := (check period s.now ok s.procs m).1,
          monitor := some (check period s.now ok s.procs m).2, up := s.up }
    | _, _ => s
  | .close => if s.up then { s with monitor := none } else s
  | .terminate =>
    if s.up then { s with procs := modify (fun p => { died := p.died, signalled := true, stdin := p.stdin }) 0 s.procs } else s
  | .ends => { now := s.now, procs := s.procs.map (fun p => { died := p.died, signalled := p.signalled, stdin := false }), monitor := none,
               up := false }
  | .reads i => { s with procs := modify (Proc.read s.now) i s.procs }

/-- core.py:267-276: the first process is started and the task spawned (its first round comes at once). -/
def State.init : State :=
  { now := 0, procs := [Proc.fresh], monitor := some { due := 0, backoff := defaultBackoff }, up := true }

/-- A history after a successful start (core.py:267-276). -/
def run (period : Nat) (ops : List Op) : State := ops.foldl (State.step period) State.init

end Verif.Supervise
