import Verif.Backend.Lemmas
/-
The invariant of one cluster: a part that holds between any two micro-actions (`CP`, it does not
depend on queue flags) and a part that holds between operations (`CV`).
-/
set_option linter.unusedSimpArgs false
set_option linter.unusedVariables false
namespace Verif.Backend

@[simp] theorem created_n : JobStatus.created.n = 1 := rfl
@[simp] theorem submitted_n : JobStatus.submitted.n = 2 := rfl
@[simp] theorem running_n : JobStatus.running.n = 3 := rfl
@[simp] theorem closing_n : JobStatus.closing.n = 4 := rfl
@[simp] theorem stopped_n : JobStatus.stopped.n = 5 := rfl
@[simp] theorem failed_n : JobStatus.failed.n = 6 := rfl

theorem n_ge5 {s : JobStatus} : 5 ≤ s.n ↔ s = .stopped ∨ s = .failed := by cases s <;> simp
theorem n_le3 {s : JobStatus} : s.n ≤ 3 ↔ s = .created ∨ s = .submitted ∨ s = .running := by
  cases s <;> simp
theorem n_eq1 {s : JobStatus} : s = .created ↔ s.n = 1 := by cases s <;> simp
theorem n_eq2 {s : JobStatus} : s = .submitted ↔ s.n = 2 := by cases s <;> simp
theorem n_eq3 {s : JobStatus} : s = .running ↔ s.n = 3 := by cases s <;> simp
theorem n_eq4 {s : JobStatus} : s = .closing ↔ s.n = 4 := by cases s <;> simp
theorem n_eq5 {s : JobStatus} : s = .stopped ↔ s.n = 5 := by cases s <;> simp
theorem n_eq6 {s : JobStatus} : s = .failed ↔ s.n = 6 := by cases s <;> simp
theorem n_range (s : JobStatus) : 1 ≤ s.n ∧ s.n ≤ 6 := by cases s <;> simp
theorem closeTarget_n (b : Bool) : (closeTarget b).n = if b then 4 else 5 := by cases b <;> rfl

/-- Where a worker is, by the log: never started or stopped since; its start in flight; started; or
the gateway died during its start. -/
inductive WSt where
  | off | starting | on | lost
deriving DecidableEq

/-- The automaton that reads the log. -/
def wst (bulk : Bool) (w : Nat) : List Ext → WSt
  | [] => .off
  | .startWorker x :: l => if x = w then .starting else wst bulk w l
  | .startedWorker x :: l => if x = w ∧ wst bulk w l = .starting then .on else wst bulk w l
  | .stopWorker x :: l => if x = w then .off else wst bulk w l
  | .stopCluster :: l => if bulk then .off else wst bulk w l
  | .crash :: l => if wst bulk w l = .starting then .lost else wst bulk w l
  | .startCluster :: l => wst bulk w l
  | .startedCluster :: l => wst bulk w l

/-- `do_start_cluster` was called since the last crash. -/
def startedSince : List Ext → Bool
  | [] => false
  | .startCluster :: _ => true
  | .crash :: _ => false
  | _ :: l => startedSince l

/-- `do_stop_cluster` was called and `do_start_cluster` was not called since. -/
def stoppedSince : List Ext → Bool
  | [] => false
  | .startCluster :: _ => false
  | .stopCluster :: _ => true
  | _ :: l => stoppedSince l

/-- Any two starts of the cluster are separated by a crash. -/
def separated : List Ext → Bool
  | [] => true
  | .startCluster :: l => !startedSince l && separated l
  | _ :: l => separated l

/-- Persistent part, for a worker of a cluster with status `cs`, target `ct` and log `log`. -/
structure WP (bulk : Bool) (cs ct : JobStatus) (log : List Ext) (w : Worker) : Prop where
  tg : 3 ≤ w.row.target.n
  fin : 5 ≤ w.row.status.n → 5 ≤ w.row.target.n
  clo : w.row.status.n = 4 → bulk = true ∧ 4 ≤ w.row.target.n
  tclo : w.row.target.n = 4 → bulk = true ∧ 5 ≤ ct.n
  cfin : 5 ≤ cs.n → 5 ≤ w.row.status.n
  ccl : cs.n = 4 → (closeTarget bulk).n ≤ w.row.target.n
  lfin : 5 ≤ w.row.status.n → wst bulk w.row.name log = .off ∨ wst bulk w.row.name log = .lost
  lcre : w.row.status.n = 1 → wst bulk w.row.name log ≠ .on
  lop : wst bulk w.row.name log = .starting → w.vol.fl = .starting

/-- Volatile part, for a worker of a cluster with call in flight `cf`. -/
structure WV (bulk : Bool) (cf : Flight) (log : List Ext) (w : Worker) : Prop where
  flS : w.vol.fl = .starting → w.row.status.n = 1 ∨ w.row.status.n = 3
  flT : w.vol.fl = .stopping → 5 ≤ w.row.target.n ∧ wst bulk w.row.name log = .off
  nw3 : 5 ≤ w.row.target.n → w.row.status.n < 5 → w.vol.pending = true ∨ w.vol.fl = .stopping
  nw4 : w.row.target.n = 4 → w.row.status.n < 4 → w.vol.pending = true
  nw5 : w.row.status.n = 1 → w.row.target.n = 3 → w.vol.fl = .idle → w.vol.pending = true
  cT : cf = .stopping → 5 ≤ w.row.status.n ∨ (bulk = true ∧ 4 ≤ w.row.status.n ∧ wst bulk w.row.name log = .off)

/-- Whether a worker still counts towards what the scheduler asked for. -/
def Worker.supplies (w : Worker) : Bool := w.row.closeExpected || decide (w.row.status.n < 5)

/-- How many do. -/
def Cluster.supply (c : Cluster) : Nat := (c.workers.filter Worker.supplies).length

/-- Persistent part for a cluster. -/
structure CP (bulk : Bool) (c : Cluster) : Prop where
  tgt : c.row.target.n = 3 ∨ 5 ≤ c.row.target.n
  clo : 4 ≤ c.row.status.n → 5 ≤ c.row.target.n
  cnt : ∀ k, c.row.maxWorkers = some k → c.row.count ≤ k ∧ c.activeWorkers.length ≤ k
  stt : c.row.stopTime.isSome = true ↔ 5 ≤ c.row.status.n
  sch : c.row.status.n = 3 → c.row.sched ≠ ""
  nodup : (names c.workers).Nodup
  lfin : 5 ≤ c.row.status.n → stoppedSince c.vol.log = true
  sep : separated c.vol.log = true
  lcre : startedSince c.vol.log = true → c.row.status.n = 1 → c.vol.fl = .starting
  lnm : ∀ x, wst bulk x c.vol.log ≠ .off → x ∈ names c.workers
  ws : ∀ w ∈ c.workers, WP bulk c.row.status c.row.target c.vol.log w

/-- Volatile part for a cluster. -/
structure CV (bulk : Bool) (c : Cluster) : Prop where
  flS : c.vol.fl = .starting → c.row.status.n = 1
  flT : c.vol.fl = .stopping → c.row.status.n = 4 ∧ stoppedSince c.vol.log = true
  nw1 : 5 ≤ c.row.target.n → c.row.status.n < 4 → c.vol.pending = true
  nw2 : c.row.status.n = 4 → c.readyToClose bulk = true → c.vol.pending = true ∨ c.vol.fl = .stopping
  nwS : c.row.status.n = 1 → c.row.target.n = 3 → c.vol.fl = .idle → c.vol.pending = true
  ready : c.vol.ready = decide (3 ≤ c.row.status.n)
  shut : c.vol.shutdown = decide (5 ≤ c.row.status.n)
  rt1 : ∀ a, c.vol.sniRoute = some a → (c.row.status.n = 3 ∨ c.row.status.n = 4) ∧ a = c.row.sched
  rt2 : ∀ a, c.vol.pathRoute = some a →
    (c.row.status.n = 3 ∨ c.row.status.n = 4) ∧ a = c.row.dash ∧ a ≠ ""
  rt3 : c.vol.added = true → 3 ≤ c.row.status.n
  rt4 : c.vol.added = true → c.row.status.n = 3 ∨ c.row.status.n = 4 →
    c.vol.sniRoute = some c.row.sched ∧ (c.row.dash ≠ "" → c.vol.pathRoute = some c.row.dash)
  rt5 : c.row.status.n = 3 → c.row.target.n = 3 → c.vol.pending = false → c.vol.added = true
  sup : c.row.status.n = 3 → c.row.target.n = 3 → c.vol.pending = false → c.row.count ≤ c.supply
  ws : ∀ w ∈ c.workers, WV bulk c.vol.fl c.vol.log w

/-- The invariant of a cluster between operations. -/
def Inv (bulk : Bool) (c : Cluster) : Prop := CP bulk c ∧ CV bulk c

/-- The micro-actions keep the persistent part throughout and the whole invariant at the end. -/
def Good (bulk : Bool) (c : Cluster) (l : List Act) : Prop :=
  AllPrefix (CP bulk) c l ∧ Inv bulk (onAll c l)

theorem Good.nil {bulk : Bool} {c : Cluster} (h : Inv bulk c) : Good bulk c [] := ⟨h.1, h⟩

theorem Good.append {bulk : Bool} {c : Cluster} {l l' : List Act} (h : Good bulk c l)
    (h' : Good bulk (onAll c l) l') : Good bulk c (l ++ l') :=
  ⟨h.1.append h'.1, by rw [onAll_append]; exact h'.2⟩

theorem Good.of_id {bulk : Bool} {c : Cluster} {l : List Act} (h : Inv bulk c)
    (hid : ∀ a ∈ l, a.onCluster c = c) : Good bulk c l :=
  ⟨AllPrefix.of_id h.1 hid, by rw [onAll_id hid]; exact h⟩

theorem Good.one {bulk : Bool} {c : Cluster} {a : Act} (h : CP bulk c)
    (h' : Inv bulk (a.onCluster c)) : Good bulk c [a] := ⟨⟨h, h'.1⟩, h'⟩

theorem Good.two {bulk : Bool} {c : Cluster} {a b : Act} (h : CP bulk c)
    (h1 : CP bulk (a.onCluster c))
    (h2 : Inv bulk (b.onCluster (a.onCluster c))) : Good bulk c [a, b] := ⟨⟨h, h1, h2.1⟩, h2⟩

/-! ### Lists of workers -/

theorem filter_map_le {p : Worker → Bool} {g : Worker → Worker} {ws : List Worker}
    (h : ∀ w ∈ ws, p (g w) = true → p w = true) :
    ((ws.map g).filter p).length ≤ (ws.filter p).length := by
  induction ws with
  | nil => simp
  | cons w ws ih =>
    have ih := ih (fun x hx => h x (by simp [hx]))
    have h1 := h w (by simp)
    simp only [List.map_cons, List.filter_cons]
    by_cases hp : p (g w) = true
    · simp [hp, h1 hp]; omega
    · by_cases hq : p w = true <;> simp [hp, hq] <;> omega

theorem filter_map_ge {p : Worker → Bool} {g : Worker → Worker} {ws : List Worker}
    (h : ∀ w ∈ ws, p w = true → p (g w) = true) :
    (ws.filter p).length ≤ ((ws.map g).filter p).length := by
  induction ws with
  | nil => simp
  | cons w ws ih =>
    have ih := ih (fun x hx => h x (by simp [hx]))
    have h1 := h w (by simp)
    simp only [List.map_cons, List.filter_cons]
    by_cases hp : p w = true
    · simp [hp, h1 hp]; omega
    · by_cases hq : p (g w) = true <;> simp [hp, hq] <;> omega

theorem name_inj {ws : List Worker} (h : (names ws).Nodup) {w x : Worker} (hw : w ∈ ws) (hx : x ∈ ws)
    (e : w.row.name = x.row.name) : w = x := by
  induction ws with
  | nil => simp at hw
  | cons y ws ih =>
    simp only [names, List.map_cons, List.nodup_cons] at h
    rcases List.mem_cons.1 hw with e1 | hw' <;> rcases List.mem_cons.1 hx with e2 | hx'
    · rw [e1, e2]
    · subst e1; exact (h.1 (List.mem_map.2 ⟨x, hx', e.symm⟩)).elim
    · subst e2; exact (h.1 (List.mem_map.2 ⟨w, hw', e⟩)).elim
    · exact ih h.2 hw' hx'

theorem mem_names_filter {ws : List Worker} (h : (names ws).Nodup) {w : Worker} (hw : w ∈ ws)
    (p : Worker → Bool) : w.row.name ∈ names (ws.filter p) ↔ p w = true := by
  constructor
  · intro hm
    obtain ⟨x, hx, e⟩ := List.mem_map.1 hm
    obtain ⟨hx, hp⟩ := List.mem_filter.1 hx
    rwa [name_inj h hw hx e.symm]
  · intro hp
    exact List.mem_map.2 ⟨w, List.mem_filter.2 ⟨hw, hp⟩, rfl⟩

theorem find_spec {c : Cluster} {x : Nat} {w : Worker} (h : c.find x = some w) :
    w ∈ c.workers ∧ w.row.name = x := by
  unfold Cluster.find at h
  exact ⟨List.mem_of_find?_eq_some h, by simpa using List.find?_some h⟩

theorem names_map {ws : List Worker} {g : Worker → Worker} (h : ∀ w ∈ ws, (g w).row.name = w.row.name) :
    names (ws.map g) = names ws := by
  simp only [names, List.map_map]
  exact List.map_congr_left (fun w hw => by simp [h w hw])

end Verif.Backend
