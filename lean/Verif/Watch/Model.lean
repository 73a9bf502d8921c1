import Verif.ProxyEvents.Spec
import Verif.Auth.Model
/-
Model of the endpoint `/api/v1/routes` for any number of proxies at once:
`dask-gateway-server/dask_gateway_server/proxy/core.py` (`routes_handler` 368-417, `_append_event` 307-318,
`_on_shutdown` 291-293) and of the cancel group it uses: `dask-gateway-server/dask_gateway_server/utils.py`
(`CancelGroup` 38-62, `_cancel_context` 65-81). The gateway's table and log of events are those of
`Verif.ProxyEvents`.

A request is handled in steps that end where the handler waits (asyncio): the answer or the registration of a watcher,
the end of `response.prepare`, one write per batch. Anything may happen in between. A batch counts as sent when it is
handed to the connection. Left out: the flag `_proxy_contacted` (core.py:272, 369), which only tests use.
-/
namespace Verif.Watch
open Verif.Router (Str)
open Verif.ProxyEvents (Server Event Route Config Call)
open Verif.Auth (split1)

/-- A request: its `Authorization` header, and its query (core.py:370-383). -/
structure Req where
  /-- core.py:371. -/
  auth : Option Str
  /-- core.py:379: the parameter `watch` is there and not empty. -/
  watch : Bool
  /-- core.py:382-384: the parameter `last_id`, 0 by default; `none` if it is not a number. -/
  lastId : Option Int
deriving DecidableEq

/-- Where a watching request stands (core.py:391-417). -/
inductive Phase where
  /-- core.py:400-402: the watcher is registered, the headers are being sent. -/
  | preparing
  /-- core.py:404-408: in the loop, and in the cancel group (utils.py:69-77). -/
  | streaming
  /-- core.py:409-410: the handler has ended, and the watcher is removed. -/
  | ended
deriving DecidableEq

/-- A watching request (core.py:394-410). -/
structure Conn where
  phase : Phase
  /-- core.py:394-396, the watcher's queue. -/
  queue : List (List Event)
  /-- The batches written to the response (core.py:408). -/
  sent : List (List Event)
  /-- The request's `last_id` (core.py:382). -/
  last : Int
  /-- For reference only: the number of events the gateway had issued when the request came. -/
  seen : Nat
deriving DecidableEq

/-- The gateway's state: the table and log, the watching requests in the order in which they came, and whether the
cancel group is cancelled (utils.py:41). -/
structure State where
  srv : Server
  conns : List Conn
  cancelled : Bool

/-- The answer to a request (core.py:368-417). -/
inductive Resp where
  /-- core.py:372-373, 376-377: 401. -/
  | unauthorized
  /-- core.py:375: a header without a blank raises `ValueError`, which aiohttp answers with 500. -/
  | failed
  /-- core.py:385-388: 422. -/
  | invalid
  /-- core.py:391-392: 410. -/
  | gone
  /-- core.py:416-417. -/
  | table (routes : List Route) (id : Nat)
  /-- core.py:400-412: a stream, with the number of the request. -/
  | stream (i : Nat)
deriving DecidableEq

/-- core.py:371-377: the check of the token; `none`: the request is let in. -/
def checkAuth (apiToken : Str) : Option Str → Option Resp
  | none => some .unauthorized
  | some [] => some .unauthorized
  | some h =>
    match split1 ' ' h with
    | none => some .failed
    | some (kind, token) => if kind ≠ "token".toList ∨ token ≠ apiToken then some .unauthorized else none

/-- core.py:394-398: a new watcher, which starts with the events it has missed. -/
def Conn.new (es : List Event) (last : Int) (seen : Nat) : Conn :=
  { phase := .preparing, queue := if es = [] then [] else [es], sent := [], last := last, seen := seen }

/-- core.py:368-417 `routes_handler`, up to its first wait. -/
def handle (apiToken : Str) (s : State) (r : Req) : State × Resp :=
  match checkAuth apiToken r.auth with
  | some resp => (s, resp)
  | none =>
    if r.watch then
      match r.lastId with
      | none => (s, .invalid)
      | some last =>
        match s.srv.eventsAfter last with
        | none => (s, .gone)
        | some es =>
          ({ srv := s.srv, conns := s.conns ++ [Conn.new es last (s.srv.nextId - 1)], cancelled := s.cancelled },
           .stream s.conns.length)
    else (s, .table s.srv.table.1 s.srv.table.2)

/-- core.py:317-318 for one watcher. -/
def Conn.push (e : Event) (c : Conn) : Conn :=
  match c.phase with
  | .ended => c
  | p => { phase := p, queue := c.queue ++ [[e]], sent := c.sent, last := c.last, seen := c.seen }

/-- The end of a handler: the watcher is removed (core.py:409-410). -/
def Conn.finish (c : Conn) : Conn :=
  { phase := .ended, queue := c.queue, sent := c.sent, last := c.last, seen := c.seen }

/-- core.py:402-404 and utils.py:69-77: the headers are sent; the handler enters the cancel group, or ends if that is
cancelled. -/
def Conn.enter (cancelled : Bool) (c : Conn) : Conn :=
  match c.phase with
  | .preparing =>
    if cancelled then c.finish
    else { phase := .streaming, queue := c.queue, sent := c.sent, last := c.last, seen := c.seen }
  | _ => c

/-- core.py:406-408: one round of the loop, if there is something in the queue. -/
def Conn.write (c : Conn) : Conn :=
  match c.phase, c.queue with
  | .streaming, b :: q => { phase := .streaming, queue := q, sent := c.sent ++ [b], last := c.last, seen := c.seen }
  | _, _ => c

/-- utils.py:50-56: cancelling the group ends the handlers in it. -/
def Conn.cancel (c : Conn) : Conn :=
  match c.phase with
  | .streaming => c.finish
  | _ => c

/-- What happens (the steps of core.py:291-417). -/
inductive Op where
  /-- The gateway adds or removes a route (core.py:320-357). -/
  | call (c : Call)
  /-- A request comes (core.py:368). -/
  | request (r : Req)
  /-- The headers of the answer to request `i` are sent (core.py:402). -/
  | prepared (i : Nat)
  /-- The handler of request `i` writes a batch (core.py:406-408). -/
  | write (i : Nat)
  /-- The connection of request `i` is found broken: the write raises (core.py:408). -/
  | broken (i : Nat)
  /-- core.py:291-293: the gateway shuts down. A second call would raise `CancelledError` and change nothing
  (utils.py:48-49). -/
  | shutdown

/-- Change of one watcher in the list (`self._watchers`, core.py:394-397). -/
def modify (f : Conn → Conn) : Nat → List Conn → List Conn
  | _, [] => []
  | 0, c :: cs => f c :: cs
  | i + 1, c :: cs => c :: modify f i cs

/-- core.py:317-318: an event goes to every watcher. -/
def broadcast (srv : Server) (e : Option Event) (s : State) : State :=
  match e with
  | none => { srv := srv, conns := s.conns, cancelled := s.cancelled }
  | some e => { srv := srv, conns := s.conns.map (Conn.push e), cancelled := s.cancelled }

/-- One event (core.py:291-417). -/
def State.step (apiToken : Str) (cfg : Config) (s : State) : Op → State
  | .call (.add k sn p t) =>
    match s.srv.addRoute cfg k sn p t with
    | none => s
    | some (srv, e) => broadcast srv (some e) s
  | .call (.remove k sn p) =>
    match s.srv.removeRoute cfg k sn p with
    | none => s
    | some (srv, e) => broadcast srv e s
  | .request r => (handle apiToken s r).1
  | .prepared i => { srv := s.srv, conns := modify (Conn.enter s.cancelled) i s.conns, cancelled := s.cancelled }
  | .write i => { srv := s.srv, conns := modify Conn.write i s.conns, cancelled := s.cancelled }
  | .broken i => { srv := s.srv, conns := modify Conn.finish i s.conns, cancelled := s.cancelled }
  | .shutdown =>
    if s.cancelled then s else { srv := s.srv, conns := s.conns.map Conn.cancel, cancelled := true }

/-- core.py:267-289. -/
def State.init (cfg : Config) (gatewayUrl : Str) : State :=
  { srv := (Server.setup cfg gatewayUrl).1, conns := [], cancelled := false }

/-- A history from the start of the proxy object (core.py:267-289). -/
def run (apiToken : Str) (cfg : Config) (gatewayUrl : Str) (ops : List Op) : State :=
  ops.foldl (State.step apiToken cfg) (State.init cfg gatewayUrl)

/-- The request of a proxy that watches (main.go:231, 306-312), with the token of its environment (core.py:217-219,
main.go:585). -/
def proxyReq (envToken : Str) (watch : Bool) (lastId : Nat) : Req :=
  { auth := some ("token ".toList ++ envToken), watch := watch, lastId := some lastId }

end Verif.Watch
