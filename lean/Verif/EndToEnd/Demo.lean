import Verif.EndToEnd.Props
/-
Concrete histories of gateway and proxy that meet the hypotheses of C113-C115.
-/
set_option linter.unusedSimpArgs false
namespace Verif.EndToEnd
open Verif.Router (Str)
open Verif.ProxyEvents (ValidPrefix ValidTarget CaughtUp)

/-- Every string is a URL here; clusters are called "c", "cc" and so on. -/
def demo : Deployment Str where
  cfg := Backend.cfgS
  pcfg := ⟨100, "/gw".toList⟩
  nameOf := fun n => List.replicate (n + 1) 'c'
  url := "http://gateway:8000".toList
  lib := ProxyEvents.demoLib

theorem demo_fit : Fit demo where
  names := {
    inj := fun m n h => by
      have := congrArg List.length h
      simp [demo] at this
      exact this
    ne := fun n => by simp [demo]
    slash := fun n => by simp [demo] }
  pfx := Or.inr (by decide +kernel)
  url := ⟨by decide +kernel, fun _ => rfl⟩

/-- The items of a history of the backend. -/
def ofEv : Backend.Ev → Item
  | .op o => .gateway o
  | .crash o k now => .crash o k now 1 true

/-- Whether every heartbeat of an item has a dashboard address that is a URL, and the item was noticed. -/
def soundB (d : Deployment Str) (i : Item) : Bool :=
  (match i with
    | .crash _ _ _ _ noticed => noticed
    | _ => true) &&
  (match i.op with
    | some (.heartbeat _ m _) => decide (m.dash = "") || (d.lib.target m.dash.toList).isSome
    | _ => true)

theorem sound_of {d : Deployment Str} {items : List Item} (h : items.all (soundB d) = true) : Sound d items := by
  intro i hi
  have := List.all_eq_true.1 h i hi
  unfold soundB at this
  simp only [Bool.and_eq_true] at this
  obtain ⟨h1, h2⟩ := this
  constructor
  · cases i <;> first | trivial | exact h1
  · rintro n m ⟨now, e⟩
    rw [e] at h2
    simpa using h2

instance (s : ProxyEvents.Sys Str) : Decidable (CaughtUp s) := inferInstanceAs (Decidable (s.phase = .streaming []))

/-- The proxy asks for the table, applies it and watches for changes. -/
def connect : List Item := [.proxy .fetch, .proxy .applyTable, .proxy .watch]

/-- A proxy that watches while a cluster starts; then it reads the two changes. -/
def up : List Item := connect ++ Backend.running2.map ofEv ++ [.proxy .deliver, .proxy .deliver]

example : Sound demo up := sound_of (by decide +kernel)
example : CaughtUp (World.run demo up).proxy := by decide +kernel
example : (Backend.State.find (World.run demo up).backend 0).map (fun c => (c.modelStatus, decide (c.vol.pending = false ∧ c.vol.fl = .idle ∧ ∀ w ∈ c.workers, w.vol.pending = false ∧ w.vol.fl = .idle), c.row.sched, c.row.dash)) =
    some (some .running, true, "tls://s", "http://d") := by decide +kernel
example : (World.run demo up).tlsTarget "c".toList = some "s".toList := by decide +kernel
example : (World.run demo up).httpTarget "/gw/clusters/c/status".toList = some "http://d".toList := by decide +kernel
example : (World.run demo up).httpTarget "/gw/api/v1/clusters/".toList = some "http://gateway:8000".toList := by decide +kernel
example : (World.run demo up).httpTarget "/gw/clusters/cc/status".toList = some "http://gateway:8000".toList := by decide +kernel
example : (World.run demo up).httpTarget "/other".toList = none := by decide +kernel

/-- Before the proxy has read the changes it is behind, and C115 still holds. -/
def behind : List Item := connect ++ Backend.running2.map ofEv ++ [.proxy .deliver]

example : ¬ CaughtUp (World.run demo behind).proxy := by decide +kernel
example : (World.run demo behind).tlsTarget "c".toList = none := by decide +kernel
example : (World.run demo behind).httpTarget "/gw/clusters/c/status".toList = some "http://d".toList := by decide +kernel

/-- The cluster is stopped, and the proxy reads that its routes are gone. -/
def down : List Item := connect ++ Backend.stopped2.map ofEv ++ List.replicate 4 (.proxy .deliver)

example : Sound demo down := sound_of (by decide +kernel)
example : CaughtUp (World.run demo down).proxy := by decide +kernel
example : (World.run demo down).tlsTarget "c".toList = none := by decide +kernel
example : (World.run demo down).httpTarget "/gw/clusters/c/status".toList = some "http://gateway:8000".toList := by decide +kernel

/-- The gateway crashes and is restarted; the proxy notices, asks for the table again, and reads the routes that the
new process adds. -/
def restarted : List Item :=
  up ++ [.crash (.getC 0 3000) 0 4000 0 true] ++ connect ++
    [.gateway (.getC 0 4000), .proxy .deliver, .proxy .deliver]

example : Sound demo restarted := sound_of (by decide +kernel)
example : (World.run demo restarted).tlsTarget "c".toList = some "s".toList := by decide +kernel
example : CaughtUp (World.run demo restarted).proxy := by decide +kernel

/-- The gateway restarts so quickly that the proxy does not notice, and the new process ends the cluster before it has
added its routes again. -/
def stale : List Item :=
  up ++ [.gateway (.stopCluster 0 false), .crash (.getC 0 4000) 0 4000 0 false, .gateway (.getC 0 4000),
    .gateway (.getW 0 1 4000), .gateway (.getW 0 2 4000), .gateway (.endStopW 0 1 4000), .gateway (.endStopW 0 2 4000),
    .gateway (.getC 0 4000), .gateway (.endStopC 0 4500), .proxy .watch]

/-- C113 does not hold if a restart of the gateway goes unnoticed: the proxy has read all changes, all clusters are
stopped, and connections for the name of one of them are still sent to the address its scheduler had. -/
theorem C113_finished_gets_nothing_violated : ∃ (d : Deployment Str) (items : List Item) (n : Nat), Fit d ∧
    CaughtUp (World.run d items).proxy ∧ (∀ c ∈ (World.run d items).backend.clusters, c.row.status = .stopped) ∧
    (World.run d items).tlsTarget (d.nameOf n) ≠ none :=
  ⟨demo, stale, 0, demo_fit, by decide +kernel, by decide +kernel, by decide +kernel⟩

end Verif.EndToEnd
