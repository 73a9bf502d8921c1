import Verif.Fleet.Model
/-
What the schedulers know of the workers that the gateway thinks are running.
-/
set_option linter.unusedSimpArgs false
set_option linter.unusedVariables false
namespace Verif.Fleet
open Verif.Backend (State Cfg Op Ev SInv)

/-- The scheduler knows a worker of that number, connected or gone. -/
def Known (env : Env) (v : Sched.Svc) (x : Nat) : Prop := ∃ y, (y ∈ v.active ∨ y ∈ v.closed) ∧ env.num y = x

/-- The heartbeat says that the worker runs. -/
def Tells (env : Env) (note : Note) (x : Nat) : Prop := ∃ y, (y ∈ note.msg.active ∨ y ∈ note.msg.closing) ∧ env.num y = x

/-- The gateway thinks that worker `x` of cluster `n` runs. -/
def Runs (s : State) (n x : Nat) : Prop :=
  ∃ c ∈ s.clusters, c.row.name = n ∧ ∃ w ∈ c.workers, w.row.name = x ∧ w.row.status = .running

/-- The invariant of one scheduler. -/
structure SchInv (env : Env) (s : State) (n : Nat) (x : Sch) : Prop where
  conn : ∀ e ∈ x.svc.workers, e.2 ∈ x.svc.active ∨ e.2 ∈ x.svc.closed
  runs : ∀ y, Runs s n y → Known env x.svc y
  strays : ∀ note ∈ x.stray, ∀ y, Tells env note y → Known env x.svc y
  sent : ∀ note, x.phase = .sent note → (∀ y, Tells env note y → Known env x.svc y) ∧
    (∀ y, Runs s n y → (env.wire n note).mentions y) ∧
    (∀ old ∈ x.stray, ∀ y, Tells env old y → (env.wire n note).mentions y)

theorem set_mem {d : List (Str × Str)} {k v : Str} {e : Str × Str} (h : e ∈ Dict.set d k v) : e = (k, v) ∨ e ∈ d := by
  induction d with
  | nil => simp only [Dict.set, List.mem_singleton] at h; exact Or.inl h
  | cons a d ih =>
    unfold Dict.set at h
    split at h
    · rcases List.mem_cons.1 h with h | h
      · exact Or.inl h
      · exact Or.inr (by simp [h])
    · rcases List.mem_cons.1 h with h | h
      · exact Or.inr (by simp [h])
      · rcases ih h with h | h
        · exact Or.inl h
        · exact Or.inr (by simp [h])

theorem mem_setAdd {s : List Str} {x y : Str} : y ∈ Sched.setAdd s x ↔ y ∈ s ∨ y = x := by
  unfold Sched.setAdd
  split
  · rename_i h
    exact ⟨Or.inl, fun e => e.elim id (fun e => e ▸ h)⟩
  · simp

theorem mem_setDel {s : List Str} {x y : Str} : y ∈ Sched.setDel s x ↔ y ∈ s ∧ y ≠ x := by simp [Sched.setDel]

theorem mem_setMinus {s t : List Str} {y : Str} : y ∈ Sched.setMinus s t ↔ y ∈ s ∧ y ∉ t := by simp [Sched.setMinus]

/-- What a scheduler knows it never forgets. -/
theorem added_known (v : Sched.Svc) (a b : Str) {y : Str} (h : y ∈ v.active ∨ y ∈ v.closed) :
    y ∈ (v.added a b).active ∨ y ∈ (v.added a b).closed := by
  simp only [Sched.Svc.added, mem_setAdd, mem_setDel]
  by_cases e : y = b
  · exact Or.inl (Or.inr e)
  · rcases h with h | h
    · exact Or.inl (Or.inl h)
    · exact Or.inr ⟨h, e⟩

theorem removed_known (v : Sched.Svc) (a : Str) {y : Str} (h : y ∈ v.active ∨ y ∈ v.closed) :
    y ∈ (v.removed a).active ∨ y ∈ (v.removed a).closed := by
  unfold Sched.Svc.removed
  split
  · exact h
  · rename_i b _
    simp only [mem_setAdd, mem_setDel]
    by_cases e : y = b
    · exact Or.inr (Or.inr e)
    · rcases h with h | h
      · exact Or.inl ⟨h, e⟩
      · exact Or.inr (Or.inl h)

theorem Known.mono {env : Env} {v v' : Sched.Svc} (h : ∀ y, (y ∈ v.active ∨ y ∈ v.closed) → (y ∈ v'.active ∨ y ∈ v'.closed)) {x : Nat} :
    Known env v x → Known env v' x := fun ⟨y, hy, e⟩ => ⟨y, h y hy, e⟩

/-- A change of what the scheduler knows of workers. -/
theorem SchInv.svc {env : Env} {s : State} {n : Nat} {x : Sch} (h : SchInv env s n x) {v : Sched.Svc} {k : Int}
    (hk : ∀ y, (y ∈ x.svc.active ∨ y ∈ x.svc.closed) → (y ∈ v.active ∨ y ∈ v.closed))
    (hc : ∀ e ∈ v.workers, e.2 ∈ v.active ∨ e.2 ∈ v.closed) : SchInv env s n { x with svc := v, count := k } where
  conn := hc
  runs y hy := (h.runs y hy).mono hk
  strays note hn y hy := (h.strays note hn y hy).mono hk
  sent note hn := ⟨fun y hy => ((h.sent note hn).1 y hy).mono hk, (h.sent note hn).2⟩

/-- The heartbeat task goes on without a heartbeat in flight. -/
theorem SchInv.calm {env : Env} {s : State} {n : Nat} {x : Sch} (h : SchInv env s n x) {p : Phase} {v : Sched.Svc}
    (hp : ∀ note, p ≠ .sent note) (ha : v.active = x.svc.active) (hc : v.closed = x.svc.closed) (hw : v.workers = x.svc.workers) :
    SchInv env s n { x with svc := v, phase := p } where
  conn := by show ∀ e ∈ v.workers, e.2 ∈ v.active ∨ e.2 ∈ v.closed; rw [ha, hc, hw]; exact h.conn
  runs y hy := (h.runs y hy).mono (fun z hz => by rw [ha, hc]; exact hz)
  strays note hn y hy := (h.strays note hn y hy).mono (fun z hz => by rw [ha, hc]; exact hz)
  sent note hn := (hp note hn).elim

/-- A heartbeat mentions all workers that its scheduler knows. -/
theorem message_mentions (env : Env) (n : Nat) (x : Sch) (l : List Str) {y : Nat} (h : Known env x.svc y) :
    (env.wire n { count := x.count, msg := x.svc.message x.count l }).mentions y := by
  obtain ⟨z, hz, rfl⟩ := h
  simp only [Backend.Msg.mentions, Env.wire, Sched.Svc.message]
  split
  · by_cases e : z ∈ l
    · exact Or.inr (Or.inl (List.mem_map_of_mem e))
    · rcases hz with hz | hz
      · exact Or.inl (List.mem_map_of_mem (mem_setMinus.2 ⟨hz, e⟩))
      · exact Or.inr (Or.inr (List.mem_map_of_mem hz))
  · rcases hz with hz | hz
    · exact Or.inl (List.mem_map_of_mem hz)
    · exact Or.inr (Or.inr (List.mem_map_of_mem hz))

theorem SchInv.make {env : Env} {s : State} {n : Nat} {x : Sch} (h : SchInv env s n x) (l : List Str) : SchInv env s n (x.make l) where
  conn := h.conn
  runs := h.runs
  strays := h.strays
  sent note hn := by
    simp only [Sch.make, Phase.sent.injEq] at hn
    subst hn
    refine ⟨fun y ⟨z, hz, e⟩ => ⟨z, ?_, e⟩, fun y hy => message_mentions env n x _ (h.runs y hy),
      fun old ho y hy => message_mentions env n x _ (h.strays old ho y hy)⟩
    simp only [Sched.Svc.message] at hz
    split at hz
    · rcases hz with hz | hz
      · exact Or.inl (mem_setMinus.1 hz).1
      · obtain ⟨-, hz⟩ := List.mem_filter.1 hz
        obtain ⟨e, he, h2⟩ := List.any_eq_true.1 hz
        rw [beq_iff_eq] at h2
        rw [← h2]
        exact h.conn e he
    · rcases hz with hz | hz
      · exact Or.inl hz
      · simp at hz

/-- An event at the gateway after which only workers run that did, or that the scheduler knows and will report. -/
theorem SchInv.gw {env : Env} {s s' : State} {n : Nat} {x : Sch} (h : SchInv env s n x)
    (hr : ∀ y, Runs s' n y → Runs s n y ∨ (Known env x.svc y ∧ ∀ note, x.phase = .sent note → (env.wire n note).mentions y)) :
    SchInv env s' n x where
  conn := h.conn
  runs y hy := (hr y hy).elim (h.runs y) (·.1)
  strays := h.strays
  sent note hn := ⟨(h.sent note hn).1, fun y hy => (hr y hy).elim ((h.sent note hn).2.1 y) (fun g => g.2 note hn), (h.sent note hn).2.2⟩

/-- A worker that runs after an event did, or the event is a heartbeat that says so. -/
theorem ev_runs {cfg : Cfg} {s : State} (hi : SInv cfg s) (e : Ev) {n x : Nat} (h : Runs (s.ev cfg e) n x) :
    Runs s n x ∨ Backend.Reports e.opOf' n x := by
  obtain ⟨d, hd, rfl, w, hw, rfl, hr⟩ := h
  rcases Backend.ev_ran hi e hd hw hr with ⟨c, hc, h1, h2⟩ | h
  · exact Or.inl ⟨c, hc, h1, h2⟩
  · exact Or.inr h

theorem opOf_taken (t : Taken) (n : Nat) (m : Backend.Msg) : ∃ now, (t.ev n m).opOf' = .heartbeat n m now := by
  cases t <;> exact ⟨_, rfl⟩

theorem reports_taken {env : Env} {t : Taken} {n k y : Nat} {note : Note} (h : Backend.Reports (t.ev n (env.wire n note)).opOf' k y) :
    k = n ∧ Tells env note y := by
  obtain ⟨now, e⟩ := opOf_taken t n (env.wire n note)
  obtain ⟨m, now', e', h⟩ := h
  rw [e] at e'
  simp only [Backend.Op.heartbeat.injEq] at e'
  obtain ⟨rfl, rfl, -⟩ := e'
  refine ⟨rfl, ?_⟩
  rcases h with h | h
  · obtain ⟨z, hz, e⟩ := List.mem_map.1 h
    exact ⟨z, Or.inl hz, e⟩
  · obtain ⟨z, hz, e⟩ := List.mem_map.1 h
    exact ⟨z, Or.inr hz, e⟩

/-- The gateway's invariant and that of one scheduler, which is not replaced. -/
structure Inv (cfg : Cfg) (env : Env) (n : Nat) (w : World) : Prop where
  gw : SInv cfg w.gw
  closing : Backend.ClosingOk w.gw
  sch : SchInv env w.gw n (w.sch n)

theorem inv_init (cfg : Cfg) (env : Env) (n : Nat) : Inv cfg env n .init where
  gw := Backend.sinv_init cfg
  closing := fun c hc => nomatch hc
  sch := by
    refine ⟨?_, ?_, ?_, ?_⟩
    · intro e he; cases he
    · rintro y ⟨c, hc, -⟩; cases hc
    · intro note hn; cases hn
    · intro note hn; cases hn

theorem setSch_sch (w : World) (n m : Nat) (x : Sch) : (w.setSch n x).sch m = if m = n then x else w.sch m := rfl
theorem setSch_gw (w : World) (n : Nat) (x : Sch) : (w.setSch n x).gw = w.gw := rfl

theorem Inv.set {cfg : Cfg} {env : Env} {n m : Nat} {w : World} (h : Inv cfg env n w) {x : Sch}
    (hx : n = m → SchInv env w.gw n x) : Inv cfg env n (w.setSch m x) where
  gw := h.gw
  closing := h.closing
  sch := by
    rw [setSch_gw, setSch_sch]
    split
    · rename_i e; exact hx e
    · exact h.sch

theorem removed_conn {v : Sched.Svc} (h : ∀ e ∈ v.workers, e.2 ∈ v.active ∨ e.2 ∈ v.closed) (a : Str) :
    ∀ e ∈ (v.removed a).workers, e.2 ∈ (v.removed a).active ∨ e.2 ∈ (v.removed a).closed := by
  intro e he
  refine removed_known v a (h e ?_)
  unfold Sched.Svc.removed at he
  split at he
  · exact he
  · exact (List.mem_filter.1 he).1

/-- A step keeps the invariant of a scheduler that is not replaced in it. -/
theorem step_inv {cfg : Cfg} {env : Env} {n : Nat} {w : World} (h : Inv cfg env n w) (i : Item) (hf : i ≠ .fresh n) :
    Inv cfg env n (w.step cfg env i) := by
  cases i with
  | gateway e =>
    simp only [World.step]
    split
    · exact h
    · rename_i hb
      refine ⟨Backend.ev_inv h.gw e, Backend.ev_closing h.gw e h.closing, h.sch.gw (fun y hy => ?_)⟩
      rcases ev_runs h.gw e hy with g | ⟨m, now, g, -⟩
      · exact Or.inl g
      · rw [g] at hb; simp [isHeartbeat] at hb
  | scale m k => exact h.set (fun e => by subst e; exact h.sch.svc (fun y hy => hy) h.sch.conn)
  | joined m a b =>
    refine h.set (fun e => ?_)
    subst e
    refine h.sch.svc (fun y hy => added_known _ a b hy) (fun e he => ?_)
    rcases set_mem he with rfl | he
    · exact Or.inl (mem_setAdd.2 (Or.inr rfl))
    · exact added_known _ a b (h.sch.conn e he)
  | left m a =>
    refine h.set (fun e => ?_)
    subst e
    exact h.sch.svc (fun y hy => removed_known _ a hy) (removed_conn h.sch.conn a)
  | make m l =>
    simp only [World.step]
    split
    · exact h.set (fun e => by subst e; exact h.sch.make l)
    · exact h
  | arrive m t a =>
    simp only [World.step]
    split
    · rename_i note hp
      have hg : Inv cfg env n { w with gw := w.gw.ev cfg (t.ev m (env.wire m note)) } := by
        refine ⟨Backend.ev_inv h.gw _, Backend.ev_closing h.gw _ h.closing, h.sch.gw (fun y hy => ?_)⟩
        rcases ev_runs h.gw _ hy with g | g
        · exact Or.inl g
        · obtain ⟨rfl, g'⟩ := reports_taken g
          refine Or.inr ⟨(h.sch.sent note hp).1 y g', fun note' hn' => ?_⟩
          rw [hp] at hn'
          simp only [Phase.sent.injEq] at hn'
          subst hn'
          obtain ⟨z, hz, rfl⟩ := g'
          rcases hz with hz | hz
          · exact Or.inl (List.mem_map_of_mem hz)
          · exact Or.inr (Or.inl (List.mem_map_of_mem hz))
      refine hg.set (fun e => ?_)
      subst e
      unfold Sch.answered
      split
      · split
        · exact hg.sch.calm (fun _ h => (by cases h)) rfl rfl rfl
        · exact hg.sch.calm (fun _ h => (by cases h)) rfl rfl rfl
      · exact hg.sch.calm (fun _ h => (by cases h)) rfl rfl rfl
    · exact h
  | lost m =>
    simp only [World.step]
    split
    · exact h.set (fun e => by subst e; exact h.sch.calm (fun _ h => (by cases h)) rfl rfl rfl)
    · exact h
  | gaveUp m =>
    simp only [World.step]
    split
    · rename_i note hp
      refine h.set (fun e => ?_)
      subst e
      refine ⟨h.sch.conn, h.sch.runs, fun old ho y hy => ?_, fun _ hn => nomatch hn⟩
      rcases List.mem_append.1 ho with ho | ho
      · exact h.sch.strays old ho y hy
      · rw [List.mem_singleton] at ho
        subst ho
        exact (h.sch.sent old hp).1 y hy
    · exact h
  | late m i t =>
    simp only [World.step]
    split
    · exact h
    · rename_i note hs
      have hmem : note ∈ (w.sch m).stray := List.mem_of_getElem? hs
      have hg : Inv cfg env n { w with gw := w.gw.ev cfg (t.ev m (env.wire m note)) } := by
        refine ⟨Backend.ev_inv h.gw _, Backend.ev_closing h.gw _ h.closing, h.sch.gw (fun y hy => ?_)⟩
        rcases ev_runs h.gw _ hy with g | g
        · exact Or.inl g
        · obtain ⟨rfl, g'⟩ := reports_taken g
          exact Or.inr ⟨h.sch.strays note hmem y g', fun note' hn' => (h.sch.sent note' hn').2.2 note hmem y g'⟩
      refine hg.set (fun e => ?_)
      subst e
      exact ⟨hg.sch.conn, hg.sch.runs, fun old ho => hg.sch.strays old (List.mem_of_mem_eraseIdx ho),
        fun nt hn => ⟨(hg.sch.sent nt hn).1, (hg.sch.sent nt hn).2.1, fun old ho => (hg.sch.sent nt hn).2.2 old (List.mem_of_mem_eraseIdx ho)⟩⟩
  | retired m ok =>
    simp only [World.step]
    split
    · refine h.set (fun e => ?_)
      subst e
      unfold Sch.retired
      cases ok
      · exact h.sch.calm (fun _ h => (by cases h)) rfl rfl rfl
      · exact h.sch.calm (fun _ h => (by cases h)) rfl rfl rfl
    · exact h
  | fresh m =>
    refine h.set (fun e => ?_)
    subst e
    exact (hf rfl).elim

theorem run_inv (cfg : Cfg) (env : Env) (n : Nat) (items : List Item) (hf : ∀ i ∈ items, i ≠ .fresh n) :
    Inv cfg env n (run cfg env items) := by
  unfold run
  have : ∀ w, Inv cfg env n w → Inv cfg env n (items.foldl (World.step cfg env) w) := by
    induction items with
    | nil => exact fun w h => h
    | cons i items ih => exact fun w h => ih (fun j hj => hf j (by simp [hj])) _ (step_inv h i (hf i (by simp)))
  exact this _ (inv_init cfg env n)

end Verif.Fleet
