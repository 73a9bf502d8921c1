import Verif.Wire.Model
import Verif.ProxyEvents.Model
/-
Model of the texts in which routes travel from the gateway to the proxy: the answers of
dask-gateway-server/dask_gateway_server/proxy/core.py:307-357, 404-417 and how
dask-gateway-proxy/cmd/dask-gateway-proxy/main.go:26-46, 236-289, 343-375 reads them.

Go's `encoding/json` and `bufio` are not part of the repository; what they do is modelled from their documentation.
How the text is divided into network packets is not: the scanner collects them in its buffer.
-/
namespace Verif.Wire
open Verif.ProxyEvents

/-! ### Gateway -/

/-- `kind`, as in core.py:324, 329, 342, 349. -/
def kindText : Option Kind → Str
  | some .sni => "SNI".toList
  | some .path => "PATH".toList
  | none => []

/-- The route of core.py:327, 333 (with a target) or 345, 352 (without). -/
def routeJson (full : Bool) (r : Route) : Json :=
  .obj (("kind".toList, .str (kindText r.kind)) ::
    ((match r.kind with
      | some .sni => [("sni".toList, .str r.sni)]
      | some .path => [("path".toList, .str r.path)]
      | none => []) ++
    (if full then [("target".toList, .str r.target)] else [])))

/-- `kind` of `_append_event`, as in core.py:337, 357. -/
def typeText : EventType → Str
  | .put => "PUT".toList
  | .delete => "DELETE".toList
  | .other => []

/-- The event of core.py:308. -/
def eventJson (e : Event) : Json :=
  .obj [("id".toList, .num (.int e.id)), ("type".toList, .str (typeText e.type)),
    ("route".toList, routeJson (e.type == .put) e.route)]

/-- `msg` of core.py:407. -/
def eventsMsg (es : List Event) : Json := .obj [("events".toList, .arr (es.map eventJson))]

/-- `msg` of core.py:416. -/
def tableMsg (t : List Route × Nat) : Json :=
  .obj [("routes".toList, .arr (t.1.map (routeJson true))), ("id".toList, .num (.int t.2))]

/-- What is written for a batch of events, core.py:408. -/
def lineOf (F : Floats) (es : List Event) : Str := dumps F (eventsMsg es) ++ ['\n']

/-- What is written in the course of a watch, core.py:405-408. -/
def streamOf (F : Floats) (bs : List (List Event)) : Str := bs.flatMap (lineOf F)

/-! ### Proxy -/

/-- `Route`, main.go:40-46, without the parsed address. -/
structure RawRoute where
  kind : Str
  sni : Str
  path : Str
  target : Str
  deriving DecidableEq, Repr

/-- `Event`, main.go:34-38. -/
structure RawEvent where
  id : Nat
  type : Str
  route : RawRoute
  deriving DecidableEq, Repr

/-- The zero values of Go (main.go:40-46). -/
def RawRoute.zero : RawRoute := ⟨[], [], [], []⟩

/-- The zero values of Go (main.go:34-38). -/
def RawEvent.zero : RawEvent := ⟨0, [], .zero⟩

/-- A member of an object belongs to a field if the names agree but for case (main.go:26-46, 281). Letters outside
ASCII that fold to ASCII ones are not modelled. -/
def fieldIs (name k : Str) : Bool := k.map Char.toLower == name

/-- Decoding into a `string` (main.go:36, 41-44, 281): null is no change. -/
def goStr (old : Str) : Json → Option Str
  | .null => some old
  | .str s => some s
  | _ => none

/-- Decoding into a `uint64` (main.go:28, 35, 281). -/
def goUint (old : Nat) : Json → Option Nat
  | .null => some old
  | .num (.int i) => if 0 ≤ i ∧ i < 18446744073709551616 then some i.toNat else none
  | _ => none

/-- One member of a route (main.go:40-46, 281); others are ignored. -/
def goRouteField (r : RawRoute) (k : Str) (v : Json) : Option RawRoute :=
  if fieldIs "kind".toList k then (goStr r.kind v).map (fun s => { r with kind := s })
  else if fieldIs "sni".toList k then (goStr r.sni v).map (fun s => { r with sni := s })
  else if fieldIs "path".toList k then (goStr r.path v).map (fun s => { r with path := s })
  else if fieldIs "target".toList k then (goStr r.target v).map (fun s => { r with target := s })
  else some r

/-- The members of a route, one after the other (main.go:40-46, 281). -/
def goRouteFields (r : RawRoute) : List (Str × Json) → Option RawRoute
  | [] => some r
  | (k, v) :: l =>
    match goRouteField r k v with
    | none => none
    | some r => goRouteFields r l

/-- Decoding into a `Route` (main.go:40-46, 257, 281). -/
def goRoute (old : RawRoute) : Json → Option RawRoute
  | .null => some old
  | .obj l => goRouteFields old l
  | _ => none

/-- One member of an event (main.go:34-38, 281); others are ignored. -/
def goEventField (e : RawEvent) (k : Str) (v : Json) : Option RawEvent :=
  if fieldIs "id".toList k then (goUint e.id v).map (fun n => { e with id := n })
  else if fieldIs "type".toList k then (goStr e.type v).map (fun s => { e with type := s })
  else if fieldIs "route".toList k then (goRoute e.route v).map (fun r => { e with route := r })
  else some e

/-- The members of an event (main.go:34-38, 281). -/
def goEventFields (e : RawEvent) : List (Str × Json) → Option RawEvent
  | [] => some e
  | (k, v) :: l =>
    match goEventField e k v with
    | none => none
    | some e => goEventFields e l

/-- Decoding into an `Event` (main.go:34-38, 281). -/
def goEvent : Json → Option RawEvent
  | .null => some .zero
  | .obj l => goEventFields .zero l
  | _ => none

/-- The items of a list (main.go:27, 31, 257, 281). -/
def goItems {α : Type} (f : Json → Option α) : List Json → Option (List α)
  | [] => some []
  | v :: l =>
    match f v, goItems f l with
    | some a, some as => some (a :: as)
    | _, _ => none

/-- Decoding into a slice (main.go:27, 31, 257, 281). If a member is there twice Go reuses the items of the first;
that is not modelled. -/
def goSlice {α : Type} (f : Json → Option α) : Json → Option (List α)
  | .null => some []
  | .arr l => goItems f l
  | _ => none

/-- The members of `EventsMsg` (main.go:30-32, 281). -/
def goEventsFields (es : List RawEvent) : List (Str × Json) → Option (List RawEvent)
  | [] => some es
  | (k, v) :: l =>
    if fieldIs "events".toList k then
      match goSlice goEvent v with
      | none => none
      | some es => goEventsFields es l
    else goEventsFields es l

/-- Decoding into `EventsMsg` (main.go:30-32, 281). -/
def goEventsMsg : Json → Option (List RawEvent)
  | .null => some []
  | .obj l => goEventsFields [] l
  | _ => none

/-- The members of `RoutesMsg` (main.go:26-29, 257). -/
def goTableFields (t : List RawRoute × Nat) : List (Str × Json) → Option (List RawRoute × Nat)
  | [] => some t
  | (k, v) :: l =>
    if fieldIs "routes".toList k then
      match goSlice (goRoute .zero) v with
      | none => none
      | some rs => goTableFields (rs, t.2) l
    else if fieldIs "id".toList k then
      match goUint t.2 v with
      | none => none
      | some n => goTableFields (t.1, n) l
    else goTableFields t l

/-- Decoding into `RoutesMsg` (main.go:26-29, 257). -/
def goTableMsg : Json → Option (List RawRoute × Nat)
  | .null => some ([], 0)
  | .obj l => goTableFields ([], 0) l
  | _ => none

/-- How the rest of the proxy sees a route: main.go:62-75 compares the kind with two words. -/
def RawRoute.view (r : RawRoute) : Route :=
  ⟨if r.kind = "SNI".toList then some .sni else if r.kind = "PATH".toList then some .path else none, r.sni, r.path,
    r.target⟩

/-- How the rest of the proxy sees an event: main.go:211-217 compares the type with two words. -/
def RawEvent.view (e : RawEvent) : Event :=
  ⟨e.id, if e.type = "PUT".toList then .put else if e.type = "DELETE".toList then .delete else .other, e.route.view⟩

/-- main.go:256-258, `json.NewDecoder(resp.Body).Decode(&msg)`: the first value of the body. -/
def readTable (F : Floats) (s : Str) : Option (List Route × Nat) :=
  match readVal F false (s.length + 1) (skipWs s) with
  | none => none
  | some (v, _) => (goTableMsg v).map (fun t => (t.1.map RawRoute.view, t.2))

/-- main.go:280-284, `json.Unmarshal(it.scanner.Bytes(), &msg)`. -/
def readBatch (F : Floats) (s : Str) : Option (List Event) :=
  match readAll F false s with
  | none => none
  | some v => (goEventsMsg v).map (List.map RawEvent.view)

/-- `bufio.MaxScanTokenSize`, the limit of main.go:270. -/
def maxLine : Nat := 65536

/-- `dropCR` of `bufio.ScanLines` (main.go:270). -/
def dropCR (l : Str) : Str := if l.getLast? = some '\r' then l.dropLast else l

/-- `Scan` (main.go:277): the next line and the rest, `none` if it returns false: at the end, and for a line that does
not fit the buffer together with its end. A last line without an end counts, if it is not empty. -/
def nextLine (s : Str) : Option (Str × Str) :=
  if s = [] then none
  else
    let l := s.takeWhile (· ≠ '\n')
    if l.length ≥ maxLine then none else some (dropCR l, s.drop (l.length + 1))

/-- How the loop main.go:363-375 ends: `Next` returns false without (`eof`) or with (`err`) an error. -/
inductive Ending where
  | eof | err
  deriving DecidableEq, Repr

/-- The batches that `Next` yields (main.go:276-289), until it returns false. The number bounds the lines. -/
def followN (F : Floats) : Nat → Str → List (List Event) × Ending
  | 0, _ => ([], .eof)
  | n + 1, s =>
    match nextLine s with
    | none => ([], .eof)
    | some (l, rest) =>
      match readBatch F l with
      | none => ([], .err)
      | some es => (es :: (followN F n rest).1, (followN F n rest).2)

/-- The batches of a stream that arrives up to some point (main.go:276-289). -/
def follow (F : Floats) (s : Str) : List (List Event) × Ending := followN F (s.length + 1) s

variable {Url : Type}

/-- main.go:363-376: the proxy reads the stream until it ends after the given text. -/
def _root_.Verif.ProxyEvents.Sys.receive (lib : UrlLib Url) (F : Floats) (s : Sys Url) (text : Str) : Sys Url :=
  let s1 := (follow F text).1.foldl (Sys.processBatch lib) s
  match (follow F text).2 with
  | .eof => { s1 with phase := .needWatch }
  | .err => { s1 with phase := .needFetch }

/-- main.go:344-353: the proxy reads the answer to its request for the table, up to the given text. -/
def _root_.Verif.ProxyEvents.Sys.receiveTable (lib : UrlLib Url) (F : Floats) (s : Sys Url) (text : Str) : Sys Url :=
  match readTable F text with
  | none => { s with phase := .needFetch }
  | some (rs, id) => { s with tables := updateFromRoutes lib rs, lastId := id, phase := .needWatch }

end Verif.Wire
