import Verif.Router.Spec
/-
Model of how routes travel from the gateway to the proxy:
`dask_gateway_server/proxy/core.py` (the gateway's routing table, its event log and the
`/api/v1/routes` endpoint) and `dask-gateway-proxy/cmd/dask-gateway-proxy/main.go` (the proxy's
tables and the loop that keeps them up to date).

Simplifications: `max_events` is a natural number. One proxy. The watcher's asyncio queue, the HTTP
stream and the proxy's read buffer are one first-in first-out channel of batches. An old stream that
the proxy has given up is not modelled, since nobody reads it. Ids are unbounded.
-/
namespace Verif.ProxyEvents
open Verif.Router (Str Router)

/-- Route kinds with a meaning, core.py:324,329. -/
inductive Kind where
  | sni | path
  deriving DecidableEq, Repr

/-- The gateway's routes are keyed by kind and name, core.py:328,334. -/
abbrev Key := Kind × Str

/-- A route as it arrives in the proxy, main.go:40-46; absent JSON members are "". The kind is
`none` if it is neither "SNI" nor "PATH". -/
structure Route where
  kind : Option Kind
  sni : Str
  path : Str
  target : Str
  deriving DecidableEq, Repr

/-- `Event.Type`, main.go:34-38; `other` is any string but "PUT" and "DELETE". -/
inductive EventType where
  | put | delete | other
  deriving DecidableEq, Repr

/-- `Event`, main.go:35-39. -/
structure Event where
  id : Nat
  type : EventType
  route : Route
  deriving DecidableEq, Repr

/-! ### Gateway -/

/-- A Python dict from keys to targets, in insertion order (core.py:277-282). -/
abbrev Dict := List (Key × Str)

/-- `d.get(k)` (core.py:320-357). -/
def dictGet (d : Dict) (k : Key) : Option Str := (d.find? (fun e => e.1 = k)).map (·.2)

/-- `d[k] = v`: an existing key keeps its place (core.py:328, 334). -/
def dictSet (d : Dict) (k : Key) (v : Str) : Dict :=
  if d.any (fun e => e.1 = k) then d.map (fun e => if e.1 = k then (k, v) else e) else d ++ [(k, v)]

/-- `d.pop(k, None)` (core.py:343, 350). -/
def dictPop (d : Dict) (k : Key) : Dict := d.filter (fun e => e.1 ≠ k)

/-- core.py:277-282, the internal state of the gateway's `Proxy`. -/
structure Server where
  routes : Dict
  offset : Nat
  events : List Event
  nextId : Nat

/-- Configuration: core.py:138 `max_events` and core.py:82 `prefix`. -/
structure Config where
  maxEvents : Nat
  pfx : Str

/-- core.py:277-282 in `setup`. -/
def Server.init : Server := ⟨[], 0, [], 1⟩

/-- core.py:307-318 `_append_event`, with `_get_id` (302-305). The event is returned for the
watchers (317-318). -/
def Server.appendEvent (cfg : Config) (s : Server) (t : EventType) (r : Route) : Server × Event :=
  let event : Event := ⟨s.nextId, t, r⟩
  let s := { s with nextId := s.nextId + 1 }
  let s :=
    if s.events.length ≥ cfg.maxEvents then
      let nDropped := cfg.maxEvents / 2
      { s with events := s.events.drop nDropped, offset := s.offset + nDropped }
    else s
  ({ s with events := s.events ++ [event] }, event)

/-- The JSON of a stored route, core.py:327,333. -/
def putRouteOf (k : Key) (target : Str) : Route :=
  match k with
  | (.sni, s) => ⟨some .sni, s, [], target⟩
  | (.path, p) => ⟨some .path, [], p, target⟩

/-- The JSON of a removed route, core.py:345,352. -/
def delRouteOf (k : Key) : Route := putRouteOf k []

/-- The checks of core.py:324-336 and 340-354: the key that a call addresses, `none` if the call
raises `ValueError`. -/
def callKey (cfg : Config) (kind : Option Kind) (sni path : Option Str) : Option Key :=
  match kind with
  | some .sni => sni.map (fun s => (.sni, s))
  | some .path => path.map (fun p => (.path, cfg.pfx ++ p))
  | none => none

/-- core.py:320-337 `add_route`; `none` if it raises `ValueError`. -/
def Server.addRoute (cfg : Config) (s : Server) (kind : Option Kind) (sni path target : Option Str) :
    Option (Server × Event) :=
  match target with
  | none => none
  | some t =>
    match callKey cfg kind sni path with
    | none => none
    | some k =>
      some ({ s with routes := dictSet s.routes k t }.appendEvent cfg .put (putRouteOf k t))

/-- core.py:339-357 `remove_route`; `none` if it raises; no event if there is no such route. -/
def Server.removeRoute (cfg : Config) (s : Server) (kind : Option Kind) (sni path : Option Str) :
    Option (Server × Option Event) :=
  match callKey cfg kind sni path with
  | none => none
  | some k =>
    match dictGet s.routes k with
    | none => some (s, none)
    | some _ =>
      let (s, e) := { s with routes := dictPop s.routes k }.appendEvent cfg .delete (delRouteOf k)
      some (s, some e)

/-- core.py:359-366 `_events_after`. -/
def Server.eventsAfter (s : Server) (lastId : Int) : Option (List Event) :=
  let index := lastId - (s.offset : Int)
  if index ≥ 0 then some (s.events.drop index.toNat) else none

/-- core.py:416 the answer to a request without `watch`. -/
def Server.table (s : Server) : List Route × Nat :=
  (s.routes.map (fun e => putRouteOf e.1 e.2), s.nextId - 1)

/-- core.py:277-289 `setup`: new state, and the route to the gateway itself. -/
def Server.setup (cfg : Config) (gatewayUrl : Str) : Server × Option Event :=
  match Server.init.addRoute cfg (some .path) none (some ['/']) (some gatewayUrl) with
  | none => (Server.init, none)
  | some (s, e) => (s, some e)

/-! ### Proxy -/

/-- Go's `net/url`, which is not modelled: `parse` stands for `url.Parse` (`none` on error) and
`scheme` for the field `Scheme`. Every theorem holds for every such library (main.go:80-88). -/
structure UrlLib (Url : Type) where
  parse : Str → Option Url
  scheme : Url → Str

variable {Url : Type}

/-- `strings.TrimPrefix(target, "tls://")`, main.go:79. -/
def trimTls (t : Str) : Str :=
  if "tls://".toList <+: t then t.drop 6 else t

/-- main.go:62-75 the part of `Validate` that does not depend on `full`. -/
def Route.validKey (r : Route) : Option Key :=
  match r.kind with
  | some .sni => if r.sni = [] then none else some (.sni, r.sni)
  | some .path => if r.path = [] then none else some (.path, r.path)
  | none => none

/-- main.go:76-91, the part of `Validate(true)` about the target of a PATH route. -/
def UrlLib.target (lib : UrlLib Url) (t : Str) : Option Url :=
  match lib.parse t with
  | none => none
  | some u =>
    if lib.scheme u ≠ "http".toList ∧ lib.scheme u ≠ "https".toList then none else some u

/-- main.go:94-100 the routing tables of the proxy. A Go map is an association list. -/
structure Tables (Url : Type) where
  sniRoutes : List (Str × Str)
  router : Router Url

/-- main.go:161-165 `clearRoutes`. -/
def Tables.empty : Tables Url := ⟨[], Router.new⟩

/-- Map read `p.sniRoutes[sni]` (main.go:501-503). -/
def sniGet (m : List (Str × Str)) (s : Str) : Option Str := (m.find? (fun e => e.1 = s)).map (·.2)

/-- main.go:167-180 `putRoute`, with `Validate(true)` (62-92). -/
def Tables.putRoute (lib : UrlLib Url) (t : Tables Url) (r : Route) : Tables Url :=
  match r.validKey with
  | none => t
  | some (.sni, s) =>
    if r.target = [] then t
    else { t with sniRoutes := (s, trimTls r.target) :: t.sniRoutes.filter (fun e => e.1 ≠ s) }
  | some (.path, p) =>
    if r.target = [] then t
    else match lib.target r.target with
      | none => t
      | some u => { t with router := t.router.put p u }

/-- main.go:182-195 `deleteRoute`, with `Validate(false)`. -/
def Tables.deleteRoute (t : Tables Url) (r : Route) : Tables Url :=
  match r.validKey with
  | none => t
  | some (.sni, s) => { t with sniRoutes := t.sniRoutes.filter (fun e => e.1 ≠ s) }
  | some (.path, p) => { t with router := t.router.delete p }

/-- main.go:197-205 `UpdateFromRoutes`. -/
def updateFromRoutes (lib : UrlLib Url) (rs : List Route) : Tables Url :=
  rs.foldl (Tables.putRoute lib) Tables.empty

/-- main.go:211-217, one event of `UpdateFromEvents`. -/
def Tables.applyEvent (lib : UrlLib Url) (t : Tables Url) (e : Event) : Tables Url :=
  match e.type with
  | .put => t.putRoute lib e.route
  | .delete => t.deleteRoute e.route
  | .other => t

/-- main.go:207-219 `UpdateFromEvents`. -/
def Tables.updateFromEvents (lib : UrlLib Url) (t : Tables Url) (es : List Event) : Tables Url :=
  es.foldl (Tables.applyEvent lib) t

/-! ### Both together -/

/-- Where the loop of `watchRoutes` (main.go:343-376) stands. -/
inductive Phase where
  /-- about to request the table (344) -/
  | needFetch
  /-- the gateway has answered with the table; the answer has not been processed (351-353) -/
  | gotTable (rs : List Route) (id : Nat)
  /-- about to watch (356) -/
  | needWatch
  /-- watching; the batches the gateway has sent that are not processed (363-369) -/
  | streaming (channel : List (List Event))
  deriving DecidableEq, Repr

/-- The gateway and the proxy: the variables of `watchRoutes` (main.go:323-379) and of the gateway's `Proxy`
(core.py:277-282). -/
structure Sys (Url : Type) where
  srv : Server
  tables : Tables Url
  lastId : Nat
  phase : Phase

/-- Steps of the system (main.go:323-379, core.py:320-417). -/
inductive Op where
  /-- the gateway calls `add_route` -/
  | add (kind : Option Kind) (sni path target : Option Str)
  /-- the gateway calls `remove_route` -/
  | remove (kind : Option Kind) (sni path : Option Str)
  /-- the gateway answers the request for the table -/
  | fetch
  /-- the request for the table fails (346-348) -/
  | fetchFail
  /-- the proxy takes over the table it was sent (351-353) -/
  | applyTable
  /-- the gateway answers the watch request (356-358): a stream, or 410 -/
  | watch
  /-- the watch request fails otherwise (359-362) -/
  | watchFail
  /-- the proxy processes the next batch (363-369) -/
  | deliver
  /-- the stream ends: `Scan` returns false (main.go:277); watch again -/
  | eof
  /-- a line of the stream does not parse (370-373); full refresh -/
  | garbled
  /-- the gateway process restarts. `noticed`: some request of the proxy failed meanwhile -/
  | restart (gatewayUrl : Str) (noticed : Bool)

/-- core.py:317-318: an event is pushed to the watcher, if there is one. -/
def Phase.push (p : Phase) (e : Event) : Phase :=
  match p with
  | .streaming ch => .streaming (ch ++ [[e]])
  | p => p

/-- main.go:364-368, a batch of events. -/
def Sys.processBatch (lib : UrlLib Url) (s : Sys Url) (es : List Event) : Sys Url :=
  match es.getLast? with
  | none => s
  | some e => { s with tables := s.tables.updateFromEvents lib es, lastId := e.id }

/-- One step of the gateway (core.py:302-417) or of the proxy (main.go:323-379). -/
def Sys.step (lib : UrlLib Url) (cfg : Config) (s : Sys Url) : Op → Sys Url
  | .add kind sni path target =>
    match s.srv.addRoute cfg kind sni path target with
    | none => s
    | some (srv, e) => { s with srv := srv, phase := s.phase.push e }
  | .remove kind sni path =>
    match s.srv.removeRoute cfg kind sni path with
    | none => s
    | some (srv, none) => { s with srv := srv }
    | some (srv, some e) => { s with srv := srv, phase := s.phase.push e }
  | .fetch =>
    match s.phase with
    | .needFetch => { s with phase := .gotTable s.srv.table.1 s.srv.table.2 }
    | _ => s
  | .fetchFail =>
    match s.phase with
    | .gotTable _ _ => { s with phase := .needFetch }
    | _ => s
  | .applyTable =>
    match s.phase with
    | .gotTable rs id =>
      { s with tables := updateFromRoutes lib rs, lastId := id, phase := .needWatch }
    | _ => s
  | .watch =>
    match s.phase with
    | .needWatch =>
      match s.srv.eventsAfter s.lastId with
      | none => { s with phase := .needFetch }
      | some es => { s with phase := .streaming (if es = [] then [] else [es]) }
    | _ => s
  | .watchFail =>
    match s.phase with
    | .needWatch => { s with phase := .needFetch }
    | _ => s
  | .deliver =>
    match s.phase with
    | .streaming (es :: ch) => { s.processBatch lib es with phase := .streaming ch }
    | _ => s
  | .eof =>
    match s.phase with
    | .streaming _ => { s with phase := .needWatch }
    | _ => s
  | .garbled =>
    match s.phase with
    | .streaming _ => { s with phase := .needFetch }
    | _ => s
  | .restart url noticed =>
    { s with
      srv := (Server.setup cfg url).1
      phase := if noticed then .needFetch else
        match s.phase with
        | .streaming _ => .needWatch
        | p => p }

/-- main.go:276-289 `evIter.Next` and the loop 363-375 around it, for the next line of the stream. The
scanner gives up on a line that does not fit its buffer (64 KiB, `bufio.MaxScanTokenSize`); `Next` then
returns false with `err` unset, which the loop takes for the end of the stream. -/
def Sys.scan (lib : UrlLib Url) (cfg : Config) (fits : List Event → Bool) (s : Sys Url) : Sys Url :=
  match s.phase with
  | .streaming (es :: _) => if fits es then s.step lib cfg .deliver else s.step lib cfg .eof
  | _ => s

/-- A fresh gateway and a fresh proxy (main.go:102-114). -/
def Sys.init (cfg : Config) (gatewayUrl : Str) : Sys Url :=
  ⟨(Server.setup cfg gatewayUrl).1, Tables.empty, 0, .needFetch⟩

/-- A history (core.py:302-417, main.go:323-379). -/
def Sys.run (lib : UrlLib Url) (cfg : Config) (gatewayUrl : Str) (ops : List Op) : Sys Url :=
  ops.foldl (Sys.step lib cfg) (Sys.init cfg gatewayUrl)

end Verif.ProxyEvents
