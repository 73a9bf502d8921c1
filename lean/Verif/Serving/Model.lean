import Verif.Tcp.Model
/-
Model of the proxy process as a whole: its loops that accept connections, the goroutine of each connection, and the
descriptors they hold: dask-gateway-server/dask-gateway-proxy/cmd/dask-gateway-proxy/main.go:111-152, 434-546.
-/
namespace Verif.Serving

open Verif.Tcp (Conn Fate handle Byte)

/-- How the process was started (main.go:121-150) and what the operating system allows. -/
structure Config where
  /-- main.go:138-140 one listener for both, with a `Forwarder` -/
  shared : Bool
  /-- main.go:122-124 -/
  child : Bool
  /-- the number of descriptors that the process may have -/
  limit : Nat
  /-- those it has from its start on: standard streams, listeners (main.go:130, 142), the connection to the gateway
  (main.go:354, 365) -/
  base : Nat

/-- Where the goroutine of a connection is (main.go:477-526), or that the HTTP server has it (main.go:434-449). -/
inductive Stage where
  /-- main.go:480 in `ReadSNI` -/
  | greeting
  /-- main.go:490, 467-469 until the HTTP server takes it -/
  | forwarding
  /-- main.go:434-449 with the HTTP server -/
  | web
  /-- main.go:512-514 about to connect -/
  | dialing (address : Str)
  /-- main.go:514 until the address answers -/
  | connecting (address : Str)
  /-- main.go:521-525, with which of the two loops are over: first the one from the client -/
  | piping (address : Str) (up down : Bool)
  /-- closed, the goroutine is over -/
  | gone
  deriving DecidableEq

/-- The descriptors that a connection holds (main.go:477-526): its own, and from `Dial` on the one to the scheduler. -/
def Stage.fds : Stage → Nat
  | .greeting => 1
  | .forwarding => 1
  | .web => 1
  | .dialing _ => 1
  | .connecting _ => 2
  | .piping _ _ _ => 2
  | .gone => 0

/-- What became of the process: main.go:152 never returns; a panic in a goroutine ends the process; main.go:116. -/
inductive Life where
  | running
  | panicked
  | ended
  deriving DecidableEq

/-- The process (main.go:121-153). -/
structure State where
  life : Life
  /-- connections to the port for schedulers that were not accepted yet -/
  backlog : Nat
  /-- the same for the port of the HTTP proxy, if it has its own -/
  webBacklog : Nat
  conns : List Stage
  /-- connections that the HTTP proxy has to schedulers and the gateway (main.go:405) -/
  out : Nat

/-- After main.go:150. -/
def State.init : State := { life := .running, backlog := 0, webBacklog := 0, conns := [], out := 0 }

/-- The descriptors in use (main.go:121-150, 477-526). -/
def State.fds (c : Config) (s : State) : Nat := c.base + s.out + (s.conns.map Stage.fds).sum

/-- What happens. -/
inductive Op where
  /-- someone connects to the port for schedulers -/
  | connect
  /-- main.go:539-544 `Accept` returns, if there is someone -/
  | accept
  /-- main.go:539 `Accept` fails for another reason than the limit of the process -/
  | acceptError
  /-- main.go:480 `ReadSNI` returns: what the connection has sent, and the routes at main.go:503 -/
  | greeted (i : Nat) (sent : Conn) (routes : Str → Str)
  /-- main.go:471-474 the HTTP server takes a connection -/
  | taken (i : Nat)
  /-- main.go:514 a socket is made -/
  | dial (i : Nat)
  /-- main.go:514-518 the connection succeeds, or fails or takes longer than ten seconds -/
  | connected (i : Nat) (ok : Bool)
  /-- main.go:528-535 the loop from the client (`true`) or to the client is over -/
  | over (i : Nat) (up : Bool)
  /-- someone connects to the port of the HTTP proxy -/
  | webConnect
  /-- main.go:440-442 `http.Server` accepts -/
  | webAccept
  /-- main.go:434-449 the HTTP server closes a connection -/
  | webEnd (i : Nat)
  /-- main.go:405 the HTTP proxy connects to a target, and this ends -/
  | outOpen
  | outClose
  /-- main.go:111-119 the gateway ends or closes its end of the pipe -/
  | stdinEnd

/-- The end of the process (main.go:116, 544): all that it has is closed. -/
def State.stop (s : State) (l : Life) : State :=
  { life := l, backlog := 0, webBacklog := 0, conns := s.conns.map (fun _ => .gone), out := 0 }

/-- One connection goes on. -/
def State.move (s : State) (i : Nat) (f : Stage → Stage) : State :=
  { s with conns := s.conns.modify i f }

/-- main.go:480-512 from the end of `ReadSNI` to `Dial` -/
def greet (c : Config) (hello : List Byte → Str) (sent : Conn) (routes : Str → Str) : Stage → Stage
  | .greeting =>
    match handle hello routes c.shared sent with
    | .closed => .gone
    | .web _ => .forwarding
    | .unknown _ => .gone
    | .dial a _ => .dialing a
  | g => g

/-- main.go:471-474 -/
def take : Stage → Stage
  | .forwarding => .web
  | g => g

/-- main.go:514 without a descriptor it fails, and main.go:499 closes the connection. -/
def dialOut (room : Bool) : Stage → Stage
  | .dialing a => if room then .connecting a else .gone
  | g => g

/-- main.go:514-518, 521-524; main.go:499 closes the connection on return. -/
def connectOut (ok : Bool) : Stage → Stage
  | .connecting a => if ok then .piping a false false else .gone
  | g => g

/-- main.go:525-526 when both loops are over main.go:499 and 519 close both connections. -/
def overOne (up : Bool) : Stage → Stage
  | .piping a u d =>
    let u := u || up
    let d := d || !up
    if u && d then .gone else .piping a u d
  | g => g

/-- main.go:434-449 -/
def webOver : Stage → Stage
  | .web => .gone
  | g => g

/-- One step of a running process. -/
def State.act (c : Config) (hello : List Byte → Str) (s : State) : Op → State
  | .connect => { s with backlog := s.backlog + 1 }
  | .accept =>
    if s.backlog = 0 then s
    else if s.fds c < c.limit then { s with backlog := s.backlog - 1, conns := s.conns ++ [.greeting] }
    else s.stop .panicked                   -- 540-544: the error is logged, and then `c.(*net.TCPConn)` of nil panics
  | .acceptError => s.stop .panicked        -- the same
  | .greeted i sent routes => s.move i (greet c hello sent routes)
  | .taken i => s.move i take
  | .dial i => s.move i (dialOut (decide (s.fds c < c.limit)))
  | .connected i ok => s.move i (connectOut ok)
  | .over i up => s.move i (overOne up)
  | .webConnect => if c.shared then s else { s with webBacklog := s.webBacklog + 1 }
  | .webAccept =>
    if s.webBacklog = 0 then s
    else if s.fds c < c.limit then { s with webBacklog := s.webBacklog - 1, conns := s.conns ++ [.web] }
    else s                                  -- `http.Server.Serve` waits and tries again if there are too many descriptors
  | .webEnd i => s.move i webOver
  | .outOpen => if s.fds c < c.limit then { s with out := s.out + 1 } else s     -- otherwise 502, main.go:380-385
  | .outClose => { s with out := s.out - 1 }
  | .stdinEnd => if c.child then s.stop .ended else s

/-- One step (main.go:121-153). -/
def State.step (c : Config) (hello : List Byte → Str) (s : State) (o : Op) : State :=
  match s.life with
  | .running => s.act c hello o
  | _ => s

/-- A history from a state on. -/
def State.runFrom (c : Config) (hello : List Byte → Str) (s : State) (ops : List Op) : State :=
  ops.foldl (State.step c hello) s

/-- A history of the process. -/
def run (c : Config) (hello : List Byte → Str) (ops : List Op) : State := State.init.runFrom c hello ops

end Verif.Serving
