import Verif.Backend.Props
import Verif.ProxyEvents.Props
/-
The gateway's backend, its routing table and the proxy together: `backends/db_base.py` calls
`add_route` and `remove_route` of `proxy/core.py`, and `dask-gateway-proxy` follows the table.

Simplifications: as in `Verif.Backend` and `Verif.ProxyEvents`. Clusters are numbered there; `nameOf` gives
the name that the database stores (db_base.py:456).
-/
namespace Verif.EndToEnd
open Verif.Router (Str)
open Verif.ProxyEvents (Sys UrlLib Config)

/-- A call of the backend on the routing table (db_base.py:1297-1298, 1320-1327). -/
inductive RouteCall where
  | addPath (n : Nat) (target : String)
  | addSni (n : Nat) (target : String)
  | removePath (n : Nat)
  | removeSni (n : Nat)
  deriving DecidableEq, Repr

/-- db_base.py:1316-1328 `_check_cluster_proxied`: its calls. -/
def proxiedCalls (c : Backend.Cluster) : List RouteCall :=
  if c.vol.added then []
  else
    (if c.row.dash = "" then [] else [.addPath c.row.name c.row.dash]) ++ [.addSni c.row.name c.row.sched]

/-- db_base.py:1192-1214 `reconcile_cluster`: the branches that reach `_check_cluster_proxied`. -/
def reachesProxied (c : Backend.Cluster) : Bool :=
  decide (c.row.target = .running) &&
    (decide (c.row.status = .running) || (decide (c.row.status = .submitted) && decide (c.row.sched ≠ "")))

/-- The calls on the routing table that an operation of the backend makes (db_base.py:1192-1214, 1285-1328). No
other operation makes any. -/
def routeCalls (s : Backend.State) : Backend.Op → List RouteCall
  | .getC n _ => match s.find n with
    | none => []
    | some c =>
      if c.vol.pending = true ∧ c.vol.fl = .idle then
        if reachesProxied c then proxiedCalls c else []
      else []
  | .endStopC n _ => match s.find n with
    | none => []
    | some c => if c.vol.fl = .stopping then [.removePath n, .removeSni n] else []
  | _ => []

/-- What the parts are configured with: the backend's configuration, `max_events` and `prefix` of the proxy
(core.py:82, 138), the names of clusters (db_base.py:456), the gateway's own address (core.py:284-289) and Go's
`net/url` (main.go:80-88). -/
structure Deployment (Url : Type) where
  cfg : Backend.Cfg
  pcfg : Config
  nameOf : Nat → Str
  url : Str
  lib : UrlLib Url

variable {Url : Type}

/-- The path of a cluster, before the prefix is added: `f"/clusters/{cluster.name}"` (db_base.py:1297, 1322). -/
def Deployment.clusterPath (d : Deployment Url) (n : Nat) : Str := "/clusters/".toList ++ d.nameOf n

/-- A call with its arguments (db_base.py:1297-1298, 1320-1327). -/
def RouteCall.toOp (d : Deployment Url) : RouteCall → ProxyEvents.Op
  | .addPath n t => .add (some .path) none (some (d.clusterPath n)) (some t.toList)
  | .addSni n t => .add (some .sni) (some (d.nameOf n)) none (some t.toList)
  | .removePath n => .remove (some .path) none (some (d.clusterPath n))
  | .removeSni n => .remove (some .sni) (some (d.nameOf n)) none

/-- Steps of the proxy and of its connection to the gateway (main.go:323-379). -/
inductive ProxyStep where
  | fetch | fetchFail | applyTable | watch | watchFail | deliver | eof | garbled
  deriving DecidableEq, Repr

/-- The same, as steps of `Verif.ProxyEvents` (main.go:323-379). -/
def ProxyStep.toOp : ProxyStep → ProxyEvents.Op
  | .fetch => .fetch
  | .fetchFail => .fetchFail
  | .applyTable => .applyTable
  | .watch => .watch
  | .watchFail => .watchFail
  | .deliver => .deliver
  | .eof => .eof
  | .garbled => .garbled

/-- What can happen: an operation of the gateway; a crash of the gateway after the first `k` micro-actions of an
operation, when `calls` of its calls on the routing table were made, and a restart at time `now` (`noticed`: some
request of the proxy failed meanwhile); a step of the proxy (db_base.py:822-1384, main.go:323-379). -/
inductive Item where
  | gateway (o : Backend.Op)
  | crash (o : Backend.Op) (k : Nat) (now : Int) (calls : Nat) (noticed : Bool)
  | proxy (p : ProxyStep)
  deriving DecidableEq, Repr

/-- The gateway's backend, and its routing table with the proxy (db_base.py:822-858, core.py:277-282). -/
structure World (Url : Type) where
  backend : Backend.State
  proxy : Sys Url

/-- The steps of routing table and proxy that an item comprises (db_base.py:1297-1328, core.py:268-289). -/
def itemOps (d : Deployment Url) (s : Backend.State) : Item → List ProxyEvents.Op
  | .gateway o => (routeCalls s o).map (RouteCall.toOp d)
  | .crash o _ _ calls noticed =>
    ((routeCalls s o).take calls).map (RouteCall.toOp d) ++ [.restart d.url noticed]
  | .proxy p => [p.toOp]

/-- What an item does to the backend (db_base.py:822-1384). -/
def itemBackend (d : Deployment Url) (s : Backend.State) : Item → Backend.State
  | .gateway o => s.ev d.cfg (.op o)
  | .crash o k now _ _ => s.ev d.cfg (.crash o k now)
  | .proxy _ => s

/-- One item (db_base.py:822-1384, main.go:323-379). -/
def World.step (d : Deployment Url) (w : World Url) (i : Item) : World Url :=
  ⟨itemBackend d w.backend i, (itemOps d w.backend i).foldl (Sys.step d.lib d.pcfg) w.proxy⟩

/-- A gateway with an empty database and a proxy, both just started (db_base.py:337-339, main.go:102-114). -/
def World.init (d : Deployment Url) : World Url := ⟨Backend.State.init, Sys.init d.pcfg d.url⟩

/-- A history (db_base.py:822-1384, main.go:323-379). -/
def World.run (d : Deployment Url) (items : List Item) : World Url := items.foldl (World.step d) (World.init d)

/-- Where the proxy sends a TLS connection for the name `sni` (main.go:503-505): the address, if any. -/
def World.tlsTarget (w : World Url) (sni : Str) : Option Str := ProxyEvents.sniGet w.proxy.tables.sniRoutes sni

/-- Where the proxy sends an HTTP request for `path` (main.go:388-392): the URL of the route, if any. -/
def World.httpTarget (w : World Url) (path : Str) : Option Url := (w.proxy.tables.router.match_ path).map (·.1)

end Verif.EndToEnd
