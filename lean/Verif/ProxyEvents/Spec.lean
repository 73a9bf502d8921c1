import Verif.ProxyEvents.Model
/-
What it means that the proxy holds the gateway's routes.
-/
namespace Verif.ProxyEvents
open Verif.Router (Str Router key walk)
variable {Url : Type}

/-- The proxy's tables hold exactly the gateway's routes `d`: a TLS name leads to the target the gateway
has for it, without "tls://", and the HTTP routes are the gateway's, keyed by path segments. -/
def Holds (lib : UrlLib Url) (d : Dict) (t : Tables Url) : Prop :=
  (∀ s, sniGet t.sniRoutes s = (dictGet d (.sni, s)).map trimTls) ∧
  (∀ k u, (walk t.router k).bind Router.url = some u ↔
    ∃ p v, dictGet d (.path, p) = some v ∧ key p = k ∧ lib.target v = some u)

/-- The proxy has caught up: it is watching and nothing is on the way. -/
def CaughtUp (s : Sys Url) : Prop := s.phase = .streaming []

/-- A target that the proxy accepts. -/
def ValidTarget (lib : UrlLib Url) (k : Kind) (t : Str) : Prop :=
  t ≠ [] ∧ (k = .path → (lib.target t).isSome)

/-- Calls of `add_route` and `remove_route` that the proxy can follow. `P` is the set of HTTP paths in
use. A restart must be noticed. Calls that raise are allowed. -/
def OkOp (lib : UrlLib Url) (cfg : Config) (P : Str → Prop) : Op → Prop
  | .add kind sni path target =>
    ∀ k t, callKey cfg kind sni path = some k → target = some t →
      ValidTarget lib k.1 t ∧ k.2 ≠ [] ∧ (k.1 = .path → P k.2)
  | .remove kind sni path =>
    ∀ k, callKey cfg kind sni path = some k → k.2 ≠ [] ∧ (k.1 = .path → P k.2)
  | .restart url noticed => noticed = true ∧ ValidTarget lib .path url
  | _ => True

/-- Different paths in use have different segments (they do not differ in a leading or trailing slash
only). -/
def NoAlias (P : Str → Prop) : Prop := ∀ p q, P p → P q → key p = key q → p = q

/-- Calls on the gateway's routing table. -/
inductive Call where
  | add (kind : Option Kind) (sni path target : Option Str)
  | remove (kind : Option Kind) (sni path : Option Str)

/-- One call: the new state and the event log extended by the event issued, if any. -/
def callStep (cfg : Config) (st : Server × List Event) : Call → Server × List Event
  | .add k sn p t => match st.1.addRoute cfg k sn p t with
    | none => st
    | some (s, e) => (s, st.2 ++ [e])
  | .remove k sn p => match st.1.removeRoute cfg k sn p with
    | none => st
    | some (s, e) => (s, st.2 ++ e.toList)

/-- The state of the gateway after a history of calls, and all events it has issued, oldest first. -/
def logOf (cfg : Config) (gatewayUrl : Str) (calls : List Call) : Server × List Event :=
  calls.foldl (callStep cfg)
    ((Server.setup cfg gatewayUrl).1, (Server.setup cfg gatewayUrl).2.toList)

/-- An event that the proxy must ignore. -/
def Malformed (lib : UrlLib Url) (e : Event) : Prop :=
  e.type = .other ∨ e.route.kind = none ∨
  (e.route.kind = some .sni ∧ e.route.sni = []) ∨
  (e.route.kind = some .path ∧ e.route.path = []) ∨
  (e.type = .put ∧ e.route.target = []) ∨
  (e.type = .put ∧ e.route.kind = some .path ∧ lib.target e.route.target = none)

/-- The HTTP paths the gateway registers: its own root, and one per cluster
(`backends/db_base.py:1316-1328`; cluster names are hexadecimal digits, db_base.py:456). -/
def GatewayPath (cfg : Config) (p : Str) : Prop :=
  p = cfg.pfx ++ "/".toList ∨
  ∃ name, name ≠ [] ∧ '/' ∉ name ∧ p = cfg.pfx ++ "/clusters/".toList ++ name

/-- A prefix that passed validation (core.py:92-102). -/
def ValidPrefix (pfx : Str) : Prop :=
  pfx = [] ∨ (pfx.head? = some '/' ∧ pfx.getLast? ≠ some '/')

end Verif.ProxyEvents
