import Verif.Serving.Model
import Verif.Tcp.Props
/-
C178: no client can stop the proxy for the others.
-/
set_option linter.unusedSimpArgs false
set_option linter.unusedVariables false
namespace Verif.Serving

open Verif.Tcp (Conn Fate handle Byte Hello Session)

/-! ### What is meant -/

/-- A connection that has not been closed. -/
def Stage.Open : Stage → Bool
  | .gone => false
  | _ => true

/-- A connection for which there is a second one, to the scheduler. -/
def Stage.Double : Stage → Bool
  | .connecting _ | .piping _ _ _ => true
  | _ => false

/-- The descriptors of the process: those from its start, one for each connection that is open, and one for each that
it made itself. -/
def used (c : Config) (s : State) : Nat :=
  c.base + s.out + s.conns.countP Stage.Open + s.conns.countP Stage.Double

/-- The connection that a step is about. -/
def Op.about : Op → Option Nat
  | .greeted i _ _ | .taken i | .dial i | .connected i _ | .over i _ | .webEnd i => some i
  | _ => none

/-- The accepting of a connection fails at this point of a history: someone waits, and no descriptor is left. -/
def Fails (c : Config) (s : State) : Op → Prop
  | .accept => s.backlog ≠ 0 ∧ c.limit ≤ used c s
  | .acceptError => True
  | _ => False

/-- The gateway that the proxy belongs to ends. -/
def Ends (c : Config) : Op → Prop
  | .stdinEnd => c.child = true
  | _ => False

/-! ### The descriptors -/

theorem fds_used (c : Config) (s : State) : s.fds c = used c s := by
  have : ∀ l : List Stage, (l.map Stage.fds).sum = l.countP Stage.Open + l.countP Stage.Double := by
    intro l
    induction l with
    | nil => rfl
    | cons a l ih =>
      rw [List.map_cons, List.sum_cons, ih]
      cases a <;> simp only [List.countP_cons, Stage.fds, Stage.Open, Stage.Double] <;> simp <;> omega
  unfold State.fds used
  rw [this]
  omega

theorem step_running (c : Config) (hello : List Byte → Str) (s : State) (o : Op) (h : s.life = .running) :
    s.step c hello o = s.act c hello o := by
  unfold State.step; rw [h]

theorem step_over (c : Config) (hello : List Byte → Str) (s : State) (o : Op) (h : s.life ≠ .running) :
    s.step c hello o = s := by
  unfold State.step
  cases hl : s.life with
  | running => exact absurd hl h
  | panicked => rfl
  | ended => rfl

theorem runFrom_over (c : Config) (hello : List Byte → Str) (s : State) (ops : List Op) (h : s.life ≠ .running) :
    s.runFrom c hello ops = s := by
  induction ops with
  | nil => rfl
  | cons o ops ih =>
    show (s.step c hello o).runFrom c hello ops = s
    rw [step_over c hello s o h]; exact ih

theorem runFrom_append (c : Config) (hello : List Byte → Str) (s : State) (a b : List Op) :
    s.runFrom c hello (a ++ b) = (s.runFrom c hello a).runFrom c hello b := by
  unfold State.runFrom; rw [List.foldl_append]

theorem run_append (c : Config) (hello : List Byte → Str) (a b : List Op) :
    run c hello (a ++ b) = (run c hello a).runFrom c hello b := runFrom_append c hello _ a b

/-- What one step does to the life of the process. -/
theorem act_life (c : Config) (hello : List Byte → Str) (s : State) (o : Op) (h : s.life = .running) :
    ((s.act c hello o).life = .panicked ↔ Fails c s o) ∧ ((s.act c hello o).life = .ended ↔ Ends c o) := by
  cases o with
  | accept =>
    unfold State.act Fails Ends
    rw [← fds_used]
    dsimp only
    split
    · next h0 => rw [h]; simp [h0]
    · next h0 =>
      split
      · next h1 => dsimp only; rw [h]; simp; omega
      · next h1 => simp [State.stop]; omega
  | acceptError => simp [State.act, Fails, Ends, State.stop]
  | stdinEnd =>
    unfold State.act Fails Ends
    dsimp only
    split
    · next h0 => simp [State.stop, h0]
    · next h0 => rw [h]; simp [h0]
  | webConnect => unfold State.act Fails Ends; dsimp only; split <;> simp [h]
  | webAccept =>
    unfold State.act Fails Ends; dsimp only
    split
    · simp [h]
    · split <;> simp [h]
  | outOpen => unfold State.act Fails Ends; dsimp only; split <;> simp [h]
  | _ => simp [State.act, State.move, Fails, Ends, h]

/-- C178: what ends the proxy. It runs on as long as the gateway does that started it and no accepting of a connection
for a scheduler fails; nothing else ends it. -/
theorem C178_ends (c : Config) (hello : List Byte → Str) (ops : List Op) :
    (run c hello ops).life = .running ↔
      ∀ a o b, ops = a ++ o :: b → ¬ Ends c o ∧ ¬ Fails c (run c hello a) o := by
  have key : ∀ (ops : List Op) (s : State), s.life = Life.running →
      ((s.runFrom c hello ops).life = .running ↔
        ∀ a o b, ops = a ++ o :: b → ¬ Ends c o ∧ ¬ Fails c (s.runFrom c hello a) o) := by
    intro ops
    induction ops with
    | nil =>
      intro s h
      refine ⟨fun _ a o b e => ?_, fun _ => h⟩
      cases a <;> cases e
    | cons o ops ih =>
      intro s h
      obtain ⟨h1, h2⟩ := act_life c hello s o h
      have e : s.runFrom c hello (o :: ops) = (s.act c hello o).runFrom c hello ops := by
        show (s.step c hello o).runFrom c hello ops = _
        rw [step_running c hello s o h]
      have e' : ∀ a, s.runFrom c hello (o :: a) = (s.act c hello o).runFrom c hello a := by
        intro a
        show (s.step c hello o).runFrom c hello a = _
        rw [step_running c hello s o h]
      rw [e]
      by_cases hr : (s.act c hello o).life = .running
      · rw [ih _ hr]
        constructor
        · intro hh a x b heq
          cases a with
          | nil =>
            cases heq
            refine ⟨fun he => ?_, fun hf => ?_⟩
            · rw [h2.mpr he] at hr; cases hr
            · rw [h1.mpr hf] at hr; cases hr
          | cons y a =>
            cases heq
            rw [e']
            exact hh a x b rfl
        · intro hh a x b heq
          have := hh (o :: a) x b (by rw [heq]; rfl)
          rwa [e'] at this
      · rw [runFrom_over c hello _ ops hr]
        refine ⟨fun hx => absurd hx hr, fun hh => ?_⟩
        obtain ⟨n1, n2⟩ := hh [] o ops rfl
        cases hl : (s.act c hello o).life with
        | running => rfl
        | panicked => exact absurd (h1.mp hl) n2
        | ended => exact absurd (h2.mp hl) n1
  exact key ops State.init rfl

/-- C178, in part: as long as descriptors are left, whatever clients and schedulers do, send or fail to send, the proxy
runs. Missing: that they are always left; see `C178_violated`. -/
theorem C178_runs_partial (c : Config) (hello : List Byte → Str) (ops : List Op)
    (he : ∀ o ∈ ops, ¬ Ends c o) (ha : ∀ o ∈ ops, match o with | .acceptError => False | _ => True)
    (hroom : ∀ a b, ops = a ++ b → used c (run c hello a) < c.limit) : (run c hello ops).life = .running := by
  refine (C178_ends c hello ops).mpr fun a o b e => ⟨he o (by rw [e]; simp), fun hf => ?_⟩
  have hr := hroom a (o :: b) e
  have hm := ha o (by rw [e]; simp)
  cases o with
  | accept => exact absurd hf.2 (by omega)
  | acceptError => exact hm
  | _ => exact hf

/-! ### The bound -/

theorem countP_modify {p : Stage → Bool} (l : List Stage) (i : Nat) (f : Stage → Stage) (hf : ∀ g, p (f g) = true → p g = true) :
    (l.modify i f).countP p ≤ l.countP p := by
  induction l generalizing i with
  | nil => cases i <;> exact Nat.le_refl _
  | cons a l ih =>
    cases i with
    | zero =>
      rw [List.modify_zero_cons, List.countP_cons, List.countP_cons]
      have := hf a
      by_cases h1 : p (f a) = true
      · rw [if_pos h1, if_pos (this h1)]; exact Nat.le_refl _
      · rw [if_neg h1]; omega
    | succ i =>
      rw [List.modify_succ_cons, List.countP_cons, List.countP_cons]
      have := ih i
      omega

theorem countP_modify_one {p : Stage → Bool} (l : List Stage) (i : Nat) (f : Stage → Stage) :
    (l.modify i f).countP p ≤ l.countP p + 1 := by
  induction l generalizing i with
  | nil => cases i <;> simp
  | cons a l ih =>
    cases i with
    | zero =>
      rw [List.modify_zero_cons, List.countP_cons, List.countP_cons]
      split <;> split <;> omega
    | succ i =>
      rw [List.modify_succ_cons, List.countP_cons, List.countP_cons]
      have := ih i
      omega

/-- The steps of a connection that add nothing. -/
theorem move_le (c : Config) (s : State) (i : Nat) (f : Stage → Stage) (h1 : ∀ g, (f g).Open = true → g.Open = true)
    (h2 : ∀ g, (f g).Double = true → g.Double = true) : used c (s.move i f) ≤ used c s := by
  have a := countP_modify s.conns i f h1
  have b := countP_modify s.conns i f h2
  unfold used State.move
  dsimp only
  omega

theorem stop_used (c : Config) (s : State) (l : Life) : used c (s.stop l) = c.base := by
  have : ∀ (p : Stage → Bool) (l : List Stage), p .gone = false → (l.map (fun _ => Stage.gone)).countP p = 0 := by
    intro p l hp
    rw [List.countP_eq_zero]
    intro a ha
    obtain ⟨_, _, rfl⟩ := List.mem_map.mp ha
    rw [hp]; exact Bool.false_ne_true
  unfold used State.stop
  dsimp only
  rw [this _ _ rfl, this _ _ rfl]
  omega

/-- C178: the proxy never has more descriptors than it is allowed. -/
theorem C178_limit (c : Config) (hello : List Byte → Str) (ops : List Op) (hb : c.base ≤ c.limit) :
    used c (run c hello ops) ≤ c.limit := by
  have key : ∀ s o, used c s ≤ c.limit → used c (s.step c hello o) ≤ c.limit := by
    intro s o h
    by_cases hl : s.life = .running
    · rw [step_running c hello s o hl]
      cases o with
      | connect => exact h
      | accept =>
        unfold State.act
        dsimp only
        split
        · exact h
        · split
          · next hf =>
            rw [fds_used] at hf
            unfold used at *
            dsimp only
            rw [List.countP_append, List.countP_append]
            simp only [List.countP_cons, List.countP_nil, Stage.Open, Stage.Double]
            simp
            omega
          · rw [stop_used]; exact hb
      | acceptError => exact Nat.le_trans (Nat.le_of_eq (stop_used c s _)) hb
      | greeted i sent routes =>
        refine Nat.le_trans (move_le c s i _ ?_ ?_) h
        · intro g; cases g <;> simp [greet, Stage.Open]
        · intro g
          cases g with
          | greeting =>
            unfold greet
            dsimp only
            cases handle hello routes c.shared sent <;> exact fun hc => hc
          | _ => exact fun hc => hc
      | taken i => exact Nat.le_trans (move_le c s i _ (by intro g; cases g <;> simp [take, Stage.Open])
          (by intro g; cases g <;> simp [take, Stage.Double])) h
      | dial i =>
        by_cases hf : s.fds c < c.limit
        · have e : s.act c hello (.dial i) = s.move i (dialOut true) := by
            unfold State.act; simp only [hf, decide_true]
          rw [e]
          rw [fds_used] at hf
          have a := countP_modify s.conns i (p := Stage.Open) (dialOut true)
            (by intro g; cases g <;> simp [dialOut, Stage.Open])
          have b := countP_modify_one s.conns i (p := Stage.Double) (dialOut true)
          unfold used State.move at *
          dsimp only
          omega
        · have e : s.act c hello (.dial i) = s.move i (dialOut false) := by
            unfold State.act; simp only [hf, decide_false]
          rw [e]
          exact Nat.le_trans (move_le c s i _ (by intro g; cases g <;> simp [dialOut, Stage.Open])
            (by intro g; cases g <;> simp [dialOut, Stage.Double])) h
      | connected i ok => exact Nat.le_trans (move_le c s i _
          (by intro g; cases g <;> cases ok <;> simp [connectOut, Stage.Open])
          (by intro g; cases g <;> cases ok <;> simp [connectOut, Stage.Double])) h
      | over i up => exact Nat.le_trans (move_le c s i _
          (by intro g; cases g <;> simp [overOne, Stage.Open])
          (by intro g; cases g <;> simp [overOne, Stage.Double])) h
      | webConnect =>
        unfold State.act
        dsimp only
        split <;> exact h
      | webAccept =>
        unfold State.act
        dsimp only
        split
        · exact h
        · split
          · next hf =>
            rw [fds_used] at hf
            unfold used at *
            dsimp only
            rw [List.countP_append, List.countP_append]
            simp only [List.countP_cons, List.countP_nil, Stage.Open, Stage.Double]
            simp
            omega
          · exact h
      | webEnd i => exact Nat.le_trans (move_le c s i _ (by intro g; cases g <;> simp [webOver, Stage.Open])
          (by intro g; cases g <;> simp [webOver, Stage.Double])) h
      | outOpen =>
        unfold State.act
        dsimp only
        split
        · next hf =>
          rw [fds_used] at hf
          unfold used at *
          dsimp only
          omega
        · exact h
      | outClose =>
        unfold State.act used at *
        dsimp only
        omega
      | stdinEnd =>
        unfold State.act
        dsimp only
        split
        · rw [stop_used]; exact hb
        · exact h
    · rw [step_over c hello s o hl]; exact h
  have all : ∀ ops s, used c s ≤ c.limit → used c (s.runFrom c hello ops) ≤ c.limit := by
    intro ops
    induction ops with
    | nil => exact fun s h => h
    | cons o ops ih => exact fun s h => ih _ (key s o h)
  refine all ops _ ?_
  unfold used State.init
  simpa using hb

/-! ### Silent connections -/

theorem connects (c : Config) (hello : List Byte → Str) (n : Nat) (s : State) (h : s.life = .running) :
    s.runFrom c hello (List.replicate n .connect) = { s with backlog := s.backlog + n } := by
  induction n generalizing s with
  | zero => rfl
  | succ n ih =>
    show (s.step c hello .connect).runFrom c hello (List.replicate n .connect) = _
    rw [step_running c hello s _ h]
    show State.runFrom c hello { s with backlog := s.backlog + 1 } (List.replicate n .connect) = _
    have := ih { s with backlog := s.backlog + 1 } h
    rw [this]
    simp only [State.mk.injEq, and_self, true_and, and_true]
    omega

/-- As long as there are descriptors for all, those who wait are accepted. -/
theorem accepts (c : Config) (hello : List Byte → Str) (n : Nat) (s : State) (h : s.life = .running)
    (hb : n ≤ s.backlog) (hu : used c s + n ≤ c.limit) :
    s.runFrom c hello (List.replicate n .accept) =
      { s with backlog := s.backlog - n, conns := s.conns ++ List.replicate n .greeting } := by
  induction n generalizing s with
  | zero => show s = { s with backlog := s.backlog, conns := s.conns ++ [] }; rw [List.append_nil]
  | succ n ih =>
    show (s.step c hello .accept).runFrom c hello (List.replicate n .accept) = _
    rw [step_running c hello s _ h]
    have e : s.act c hello .accept = { s with backlog := s.backlog - 1, conns := s.conns ++ [.greeting] } := by
      unfold State.act
      rw [fds_used]
      rw [if_neg (by omega), if_pos (by omega)]
    rw [e]
    have hu' : used c { s with backlog := s.backlog - 1, conns := s.conns ++ [.greeting] } = used c s + 1 := by
      unfold used
      dsimp only
      rw [List.countP_append, List.countP_append]
      simp only [List.countP_cons, List.countP_nil, Stage.Open, Stage.Double]
      simp
      omega
    have := ih { s with backlog := s.backlog - 1, conns := s.conns ++ [.greeting] } h (by dsimp only; omega) (by omega)
    rw [this]
    simp only [State.mk.injEq, true_and, and_true]
    refine ⟨by omega, ?_⟩
    rw [List.append_assoc]
    rfl

theorem accept_panics (c : Config) (hello : List Byte → Str) (n : Nat) (s : State) (h : s.life = .running)
    (hb : c.limit - used c s < s.backlog) (hn : c.limit - used c s < n) (hu : used c s ≤ c.limit) :
    s.runFrom c hello (List.replicate n .accept) =
      { life := .panicked, backlog := 0, webBacklog := 0, out := 0,
        conns := List.replicate (s.conns.length + (c.limit - used c s)) .gone } := by
  obtain ⟨k, rfl⟩ : ∃ k, n = (c.limit - used c s) + (k + 1) := ⟨n - (c.limit - used c s) - 1, by omega⟩
  rw [← List.replicate_append_replicate, runFrom_append,
    accepts c hello _ s h (by omega) (by omega)]
  have hu' : used c (State.mk s.life (s.backlog - (c.limit - used c s)) s.webBacklog
      (s.conns ++ List.replicate (c.limit - used c s) .greeting) s.out) = c.limit := by
    unfold used at *
    dsimp only
    rw [List.countP_append, List.countP_append, List.countP_replicate, List.countP_replicate]
    simp only [Stage.Open, Stage.Double]
    simp
    omega
  have e : ∀ t : State, t.life = .running → t.backlog ≠ 0 → used c t = c.limit →
      t.runFrom c hello (List.replicate (k + 1) .accept) = t.stop .panicked := by
    intro t h1 h2 h3
    show (t.step c hello .accept).runFrom c hello (List.replicate k .accept) = _
    rw [step_running c hello t _ h1]
    have : t.act c hello .accept = t.stop .panicked := by
      unfold State.act
      rw [fds_used, if_neg h2, if_neg (by omega)]
    rw [this]
    exact runFrom_over c hello _ _ (by simp [State.stop])
  rw [e (State.mk s.life (s.backlog - (c.limit - used c s)) s.webBacklog
      (s.conns ++ List.replicate (c.limit - used c s) Stage.greeting) s.out) h (by dsimp only; omega) hu']
  unfold State.stop
  simp only [State.mk.injEq, true_and, and_true]
  rw [List.map_const']
  rw [List.length_append, List.length_replicate]

/-- C178 is refuted: whatever has happened before, whoever can reach the port for schedulers stops the proxy by opening
connections and sending nothing: when there are no more descriptors the next connection ends the process, and with it
every connection of every cluster. -/
theorem C178_violated (c : Config) (hello : List Byte → Str) (ops : List Op) (hb : c.base ≤ c.limit)
    (hr : (run c hello ops).life = .running) :
    ∃ n, n ≤ c.limit - c.base + 1 ∧
      (run c hello (ops ++ List.replicate n .connect ++ List.replicate n .accept)).life = .panicked ∧
      ∀ g ∈ (run c hello (ops ++ List.replicate n .connect ++ List.replicate n .accept)).conns, g = .gone := by
  have hu := C178_limit c hello ops hb
  have hbase : c.base ≤ used c (run c hello ops) := by unfold used; omega
  refine ⟨c.limit - used c (run c hello ops) + 1, by omega, ?_⟩
  rw [run_append, run_append, connects c hello _ _ hr]
  have e := accept_panics c hello (c.limit - used c (run c hello ops) + 1)
    (State.mk (run c hello ops).life ((run c hello ops).backlog + (c.limit - used c (run c hello ops) + 1))
      (run c hello ops).webBacklog (run c hello ops).conns (run c hello ops).out) hr
    (by show c.limit - used c (run c hello ops) < (run c hello ops).backlog + _; omega)
    (by show c.limit - used c (run c hello ops) < _; omega) hu
  rw [e]
  exact ⟨rfl, fun g hg => List.eq_of_mem_replicate hg⟩

/-! ### One connection and the others -/

theorem modify_other {α : Type} (l : List α) (i j : Nat) (f : α → α) (h : i ≠ j) : (l.modify i f)[j]? = l[j]? := by
  rw [List.getElem?_modify]
  simp [h]

/-- C178: what a client or a scheduler does changes nothing for the connections of others, as long as the process
runs. -/
theorem C178_separate (c : Config) (hello : List Byte → Str) (s : State) (o : Op) (j : Nat) (g : Stage)
    (hj : s.conns[j]? = some g) (ho : o.about ≠ some j) (hr : (s.step c hello o).life = .running) :
    (s.step c hello o).conns[j]? = some g := by
  by_cases hl : s.life = .running
  · rw [step_running c hello s o hl] at hr ⊢
    have happ : ∀ x, (s.conns ++ [x])[j]? = some g := by
      intro x
      have hlt : j < s.conns.length := (List.getElem?_eq_some_iff.mp hj).1
      rw [List.getElem?_append_left hlt]; exact hj
    have hm : ∀ i f, i ≠ j → (s.move i f).conns[j]? = some g := by
      intro i f hne
      show (s.conns.modify i f)[j]? = _
      rw [modify_other _ _ _ _ hne]; exact hj
    cases o with
    | connect => exact hj
    | accept =>
      unfold State.act at hr ⊢
      dsimp only at hr ⊢
      split
      · exact hj
      · split
        · exact happ _
        · next h0 h1 => rw [if_neg h0, if_neg h1] at hr; cases hr
    | acceptError => cases hr
    | greeted i sent routes => exact hm i _ (fun h => ho (by rw [h]; rfl))
    | taken i => exact hm i _ (fun h => ho (by rw [h]; rfl))
    | dial i => exact hm i _ (fun h => ho (by rw [h]; rfl))
    | connected i ok => exact hm i _ (fun h => ho (by rw [h]; rfl))
    | over i up => exact hm i _ (fun h => ho (by rw [h]; rfl))
    | webConnect =>
      unfold State.act
      dsimp only
      split <;> exact hj
    | webAccept =>
      unfold State.act
      dsimp only
      split
      · exact hj
      · split
        · exact happ _
        · exact hj
    | webEnd i => exact hm i _ (fun h => ho (by rw [h]; rfl))
    | outOpen =>
      unfold State.act
      dsimp only
      split <;> exact hj
    | outClose => exact hj
    | stdinEnd =>
      unfold State.act at hr ⊢
      dsimp only at hr ⊢
      split
      · next h0 => rw [if_pos h0] at hr; cases hr
      · exact hj
  · rw [step_over c hello s o hl]; exact hj

/-- C178 is refuted for silent connections as well: nothing gives up a connection whose client has not sent its
greeting, however long this lasts and whatever else happens. -/
theorem C178_silent_violated (c : Config) (hello : List Byte → Str) (s : State) (j : Nat) (ops : List Op)
    (hj : s.conns[j]? = some .greeting) (ho : ∀ o ∈ ops, o.about ≠ some j)
    (hr : (s.runFrom c hello ops).life = .running) :
    (s.runFrom c hello ops).conns[j]? = some .greeting := by
  induction ops generalizing s with
  | nil => exact hj
  | cons o ops ih =>
    have hr' : (s.step c hello o).life = .running := by
      refine Classical.byContradiction fun hn => ?_
      have : s.runFrom c hello (o :: ops) = s.step c hello o := runFrom_over c hello _ ops hn
      rw [this] at hr
      exact hn hr
    exact ih _ (C178_separate c hello s o j _ hj (ho o (by simp)) hr') (fun x hx => ho x (by simp [hx])) hr

/-- A client whose connection waits last, and who sends the greeting for a cluster, gets to the scheduler of the cluster
by these steps alone. -/
def served (s : State) (sent : Conn) (routes : Str → Str) : List Op :=
  List.replicate s.backlog .accept ++
    [.greeted (s.conns.length + s.backlog - 1) sent routes, .dial (s.conns.length + s.backlog - 1),
      .connected (s.conns.length + s.backlog - 1) true]

theorem modify_last {α : Type} (l : List α) (x : α) (f : α → α) (i : Nat) (h : i = l.length) :
    (l ++ [x]).modify i f = l ++ [f x] := by
  subst h
  induction l with
  | nil => rfl
  | cons a l ih =>
    rw [List.cons_append, List.length_cons, List.modify_succ_cons, ih]; rfl

/-- C178: as long as descriptors are left, a client who sends the greeting of a known cluster is connected with its
scheduler, whatever the other connections do: they keep waiting, copying or holding on as they were. -/
theorem C178_served (c : Config) (hello : List Byte → Str) (s : State) (sent : Conn) (routes : Str → Str) (n : Nat) (x : Str)
    (hl : s.life = .running) (hb : s.backlog ≠ 0) (hu : used c s + s.backlog + 1 ≤ c.limit)
    (hh : Hello sent.flatten n) (hn : n ≤ 4096)
    (hx : hello (sent.flatten.take n) = "daskgateway-".toList ++ x) (hr : routes x ≠ []) :
    s.runFrom c hello (served s sent routes) =
      { s with backlog := 0, conns := s.conns ++ List.replicate (s.backlog - 1) .greeting ++ [.piping (routes x) false false] } := by
  unfold served
  rw [runFrom_append, accepts c hello _ s hl (Nat.le_refl _) (by omega)]
  obtain ⟨p, _, hd⟩ := Tcp.C81_reaches_partial hello routes c.shared sent n hh hn x hx hr
  have hsplit : s.conns ++ List.replicate s.backlog Stage.greeting =
      (s.conns ++ List.replicate (s.backlog - 1) .greeting) ++ [.greeting] := by
    obtain ⟨m, hm⟩ : ∃ m, s.backlog = m + 1 := ⟨s.backlog - 1, by omega⟩
    rw [hm, List.append_assoc, Nat.add_sub_cancel, List.replicate_succ']
  have hi : s.conns.length + s.backlog - 1 = (s.conns ++ List.replicate (s.backlog - 1) Stage.greeting).length := by
    rw [List.length_append, List.length_replicate]; omega
  generalize s.conns.length + s.backlog - 1 = i at hi
  rw [Nat.sub_self, hsplit]
  show State.step c hello (State.step c hello (State.step c hello _ (.greeted i sent routes)) (.dial i)) (.connected i true) = _
  rw [step_running c hello (State.mk s.life 0 s.webBacklog (s.conns ++ List.replicate (s.backlog - 1) Stage.greeting ++ [Stage.greeting]) s.out)
    (.greeted i sent routes) hl]
  have e1 : State.act c hello
      { s with backlog := 0, conns := s.conns ++ List.replicate (s.backlog - 1) .greeting ++ [.greeting] }
      (.greeted i sent routes) =
      { s with backlog := 0, conns := s.conns ++ List.replicate (s.backlog - 1) .greeting ++ [.dialing (routes x)] } := by
    show State.mk _ _ _ (List.modify _ i (greet c hello sent routes)) _ = _
    rw [modify_last _ _ _ _ hi]
    have : greet c hello sent routes .greeting = .dialing (routes x) := by
      unfold greet; rw [hd]
    rw [this]
  rw [e1, step_running c hello
    (State.mk s.life 0 s.webBacklog (s.conns ++ List.replicate (s.backlog - 1) Stage.greeting ++ [Stage.dialing (routes x)]) s.out) (.dial i) hl]
  have hroom : State.fds c
      { s with backlog := 0, conns := s.conns ++ List.replicate (s.backlog - 1) .greeting ++ [.dialing (routes x)] } < c.limit := by
    rw [fds_used]
    unfold used at *
    dsimp only
    rw [List.countP_append, List.countP_append, List.countP_append, List.countP_append, List.countP_replicate,
      List.countP_replicate]
    simp only [List.countP_cons, List.countP_nil, Stage.Open, Stage.Double]
    simp
    omega
  have e2 : State.act c hello
      { s with backlog := 0, conns := s.conns ++ List.replicate (s.backlog - 1) .greeting ++ [.dialing (routes x)] }
      (.dial i) =
      { s with backlog := 0, conns := s.conns ++ List.replicate (s.backlog - 1) .greeting ++ [.connecting (routes x)] } := by
    unfold State.act
    rw [decide_eq_true hroom]
    show State.mk _ _ _ (List.modify _ i (dialOut true)) _ = _
    rw [modify_last _ _ _ _ hi]
    rfl
  rw [e2, step_running c hello
    (State.mk s.life 0 s.webBacklog (s.conns ++ List.replicate (s.backlog - 1) Stage.greeting ++ [Stage.connecting (routes x)]) s.out)
    (.connected i true) hl]
  show State.mk _ _ _ (List.modify _ i (connectOut true)) _ = _
  rw [modify_last _ _ _ _ hi]
  rfl

/-! ### What is over is released -/

/-- C178: a connection that names no known cluster, one whose scheduler cannot be reached and one whose two directions
are over are closed; when the process ends so is everything. -/
theorem C178_released (c : Config) (hello : List Byte → Str) (s : State) (i : Nat) (g : Stage) (hl : s.life = .running)
    (hi : s.conns[i]? = some g) :
    (∀ sent routes, g = .greeting →
      (∀ n x, Hello sent.flatten n → n ≤ 4096 → hello (sent.flatten.take n) = "daskgateway-".toList ++ x → routes x = []) →
      (s.step c hello (.greeted i sent routes)).conns[i]? = some .gone ∨
      (c.shared = true ∧ (s.step c hello (.greeted i sent routes)).conns[i]? = some .forwarding)) ∧
    (∀ a, g = .connecting a → (s.step c hello (.connected i false)).conns[i]? = some .gone) ∧
    (∀ a, g = .dialing a → c.limit ≤ used c s → (s.step c hello (.dial i)).conns[i]? = some .gone) ∧
    (∀ a up, g = .piping a false false →
      ((s.step c hello (.over i up)).step c hello (.over i (!up))).conns[i]? = some .gone) ∧
    (g = .web → (s.step c hello (.webEnd i)).conns[i]? = some .gone) := by
  have hm : ∀ f, (s.move i f).conns[i]? = some (f g) := by
    intro f
    show (s.conns.modify i f)[i]? = _
    rw [List.getElem?_modify, hi]; simp
  refine ⟨?_, ?_, ?_, ?_, ?_⟩
  · rintro sent routes rfl hno
    rw [step_running c hello s _ hl]
    show (s.move i (greet c hello sent routes)).conns[i]? = _ ∨ (_ ∧ (s.move i (greet c hello sent routes)).conns[i]? = _)
    rw [hm]
    unfold greet
    dsimp only
    cases hd : handle hello routes c.shared sent with
    | closed => exact Or.inl rfl
    | web p =>
      right
      refine ⟨?_, rfl⟩
      unfold handle at hd
      cases hs : c.shared with
      | true => rfl
      | false =>
        rw [hs] at hd
        split at hd
        · cases hd
        · split at hd
          · cases hd
          · dsimp only at hd
            split at hd <;> cases hd
    | unknown n => exact Or.inl rfl
    | dial a p =>
      obtain ⟨n, x, h1, h2, h3, h4, h5⟩ := Tcp.C81_only hello routes c.shared sent a p hd
      exact absurd (h4.symm.trans (hno n x h1 h2 h3)) h5
  · rintro a rfl
    rw [step_running c hello s _ hl]
    exact hm _
  · rintro a rfl hf
    rw [step_running c hello s _ hl]
    unfold State.act
    rw [decide_eq_false (by rw [fds_used]; omega)]
    exact hm _
  · rintro a up rfl
    rw [step_running c hello s _ hl]
    have h1 : (s.act c hello (.over i up)).life = .running := hl
    rw [step_running c hello _ _ h1]
    show (((s.conns.modify i (overOne up)).modify i (overOne (!up))))[i]? = _
    rw [List.getElem?_modify, List.getElem?_modify, hi]
    cases up <;> simp [overOne]
  · rintro rfl
    rw [step_running c hello s _ hl]
    exact hm _

/-- C178: the port of the HTTP proxy, if it has its own, is not affected: without descriptors a client waits, and is
accepted once there is one. -/
theorem C178_web (c : Config) (hello : List Byte → Str) (s : State) (hl : s.life = .running) (hb : s.webBacklog ≠ 0) :
    (c.limit ≤ used c s → s.step c hello .webAccept = s) ∧
    (used c s < c.limit → s.step c hello .webAccept =
      { s with webBacklog := s.webBacklog - 1, conns := s.conns ++ [.web] }) := by
  rw [step_running c hello s _ hl]
  unfold State.act
  rw [fds_used]
  dsimp only
  rw [if_neg hb]
  exact ⟨fun h => if_neg (by omega), fun h => if_pos h⟩

/-- C178: a connection with a scheduler stays, with the same scheduler, as long as one of its directions is not over. -/
theorem C178_kept (c : Config) (hello : List Byte → Str) (s : State) (o : Op) (j : Nat) (a : Str) (u d : Bool)
    (hj : s.conns[j]? = some (.piping a u d)) (hr : (s.step c hello o).life = .running)
    (hd : ¬ (o = .over j true ∧ d = true) ∧ ¬ (o = .over j false ∧ u = true) ∧ (u && d) = false) :
    ∃ u' d', (s.step c hello o).conns[j]? = some (.piping a u' d') ∧ (u = true → u' = true) ∧ (d = true → d' = true) := by
  by_cases ho : o.about = some j
  · have hl : s.life = .running := by
      refine Classical.byContradiction fun hn => ?_
      rw [step_over c hello s o hn] at hr; exact hn hr
    have hm : ∀ f, (s.move j f).conns[j]? = some (f (.piping a u d)) := by
      intro f
      show (s.conns.modify j f)[j]? = _
      rw [List.getElem?_modify, hj]; simp
    rw [step_running c hello s o hl]
    cases o with
    | greeted i x y => cases ho; exact ⟨u, d, hm _, id, id⟩
    | taken i => cases ho; exact ⟨u, d, hm _, id, id⟩
    | dial i => cases ho; exact ⟨u, d, hm _, id, id⟩
    | connected i x => cases ho; exact ⟨u, d, hm _, id, id⟩
    | webEnd i => cases ho; exact ⟨u, d, hm _, id, id⟩
    | over i up =>
      cases ho
      refine ⟨u || up, d || !up, (hm _).trans ?_, ?_, ?_⟩
      · cases up <;> cases u <;> cases d <;> simp_all [overOne]
      · intro h; rw [h]; rfl
      · intro h; rw [h]; rfl
    | _ => cases ho
  · exact ⟨u, d, C178_separate c hello s o j _ hj ho hr, id, id⟩

/-- C178: where one port serves both, a connection that is not for a cluster gets to the HTTP server by its own steps. -/
theorem C178_to_web (c : Config) (hello : List Byte → Str) (s : State) (i : Nat) (sent : Conn) (routes : Str → Str)
    (hl : s.life = .running) (hi : s.conns[i]? = some .greeting) (hs : c.shared = true) (hne : sent.flatten ≠ [])
    (ho : ¬ ∃ n x, Hello sent.flatten n ∧ n ≤ 4096 ∧ hello (sent.flatten.take n) = "daskgateway-".toList ++ x) :
    ((s.step c hello (.greeted i sent routes)).step c hello (.taken i)).conns[i]? = some .web := by
  obtain ⟨p, _, hp⟩ := Tcp.C81_web hello routes sent hne ho
  rw [step_running c hello s _ hl]
  have h1 : (s.act c hello (.greeted i sent routes)).life = .running := hl
  rw [step_running c hello _ _ h1]
  show ((s.conns.modify i (greet c hello sent routes)).modify i take)[i]? = _
  rw [List.getElem?_modify, List.getElem?_modify, hi]
  have : greet c hello sent routes .greeting = .forwarding := by
    unfold greet; rw [hs, hp]
  simp [this, take]

/-- C178: who waits to be accepted waits until this happens. -/
theorem C178_waiting (c : Config) (hello : List Byte → Str) (s : State) (o : Op)
    (hr : (s.step c hello o).life = .running) :
    (s.step c hello o).backlog = (match o with | .connect => s.backlog + 1 | .accept => s.backlog - 1 | _ => s.backlog) ∧
    (s.step c hello o).webBacklog = (match o with
      | .webConnect => if c.shared = true then s.webBacklog else s.webBacklog + 1
      | .webAccept => if used c s < c.limit then s.webBacklog - 1 else s.webBacklog
      | _ => s.webBacklog) := by
  have hl : s.life = .running := by
    refine Classical.byContradiction fun hn => ?_
    rw [step_over c hello s o hn] at hr; exact hn hr
  rw [step_running c hello s o hl] at hr ⊢
  cases o with
  | accept =>
    unfold State.act at hr ⊢
    dsimp only at hr ⊢
    split
    · next h0 => exact ⟨by omega, rfl⟩
    · next h0 =>
      split
      · exact ⟨rfl, rfl⟩
      · next h1 => rw [if_neg h0, if_neg h1] at hr; cases hr
  | acceptError => cases hr
  | webConnect =>
    unfold State.act
    dsimp only
    split <;> exact ⟨rfl, rfl⟩
  | webAccept =>
    unfold State.act
    rw [fds_used]
    dsimp only
    split
    · next h0 => exact ⟨rfl, by split <;> omega⟩
    · split
      · exact ⟨rfl, rfl⟩
      · exact ⟨rfl, rfl⟩
  | outOpen =>
    unfold State.act
    dsimp only
    split <;> exact ⟨rfl, rfl⟩
  | stdinEnd =>
    unfold State.act at hr ⊢
    dsimp only at hr ⊢
    split
    · next h0 => rw [if_pos h0] at hr; cases hr
    · exact ⟨rfl, rfl⟩
  | _ => exact ⟨rfl, rfl⟩

/-- C178: the process begins with nothing but its own descriptors and without anyone waiting; each connection that the HTTP
proxy makes takes one, which is free again when it ends. -/
theorem C178_out (c : Config) (hello : List Byte → Str) (s : State) (hl : s.life = .running) :
    used c (run c hello []) = c.base ∧ (run c hello []).backlog = 0 ∧ (run c hello []).webBacklog = 0 ∧
    (used c s < c.limit → used c (s.step c hello .outOpen) = used c s + 1 ∧
      used c ((s.step c hello .outOpen).step c hello .outClose) = used c s) := by
  refine ⟨rfl, rfl, rfl, fun h => ?_⟩
  have h1 : s.step c hello .outOpen = { s with out := s.out + 1 } := by
    rw [step_running c hello s _ hl]
    unfold State.act
    dsimp only
    rw [fds_used, if_pos h]
  rw [h1]
  refine ⟨by unfold used; dsimp only; omega, ?_⟩
  rw [step_running c hello { s with out := s.out + 1 } _ hl]
  unfold State.act used
  dsimp only
  omega

/-! ### The end of a proxied connection -/

theorem closed_other (ops : List Tcp.TOp) (d : Bool) (h : ((Session.run ops).ways d).over = true) :
    ((Session.run ops).ways (!d)).readClosed = true ∧ ((Session.run ops).ways (!d)).writeClosed = true := by
  have key : ∀ (ops : List Tcp.TOp) (s : Session),
      (∀ d, (s.ways d).over = true → (s.ways (!d)).readClosed = true ∧ (s.ways (!d)).writeClosed = true) →
      ∀ d, ((ops.foldl Session.step s).ways d).over = true →
        ((ops.foldl Session.step s).ways (!d)).readClosed = true ∧
        ((ops.foldl Session.step s).ways (!d)).writeClosed = true := by
    intro ops
    induction ops with
    | nil => exact fun s h => h
    | cons o ops ih =>
      intro s h
      refine ih (s.step o) ?_
      intro e he
      have h1 := h true
      have h2 := h false
      cases o with
      | send x bytes =>
        unfold Session.step at he ⊢
        dsimp only at he ⊢
        split at he
        · next hf => rw [if_pos hf]; exact h e he
        · next hf => rw [if_neg hf]; cases x <;> cases e <;> simp_all [Session.set]
      | fin x => cases x <;> cases e <;> simp_all [Session.step, Session.set]
      | copy x k =>
        unfold Session.step at he ⊢
        dsimp only at he ⊢
        split at he
        · next hf => rw [if_pos hf]; exact h e he
        · next hf =>
          rw [if_neg hf]
          split at he
          · next hg => rw [if_pos hg]; cases x <;> cases e <;> simp_all [Session.set, Session.finish]
          · next hg => rw [if_neg hg]; cases x <;> cases e <;> simp_all [Session.set]
      | eof x =>
        unfold Session.step at he ⊢
        dsimp only at he ⊢
        split at he
        · next hf => rw [if_pos hf]; cases x <;> cases e <;> simp_all [Session.set, Session.finish]
        · next hf => rw [if_neg hf]; exact h e he
  exact key ops Session.init (by intro d hd; cases hd) d h

/-- C178: once one direction of a proxied connection is over the other ends as well by the steps of the proxy alone, so
that both connections are closed (`C178_released`): a client or a scheduler that has gone leaves no descriptor behind, even
if the other side keeps its connection open and silent. -/
theorem C178_both (ops : List Tcp.TOp) (d : Bool) (h : ((Session.run ops).ways d).over = true) :
    ∃ k, ∀ e, ((Session.run (ops ++ [.copy (!d) k, .eof (!d)])).ways e).over = true := by
  obtain ⟨h1, h2⟩ := closed_other ops d h
  have e : ∀ k, Session.run (ops ++ [.copy (!d) k, .eof (!d)]) = ((Session.run ops).step (.copy (!d) k)).step (.eof (!d)) := by
    intro k; unfold Session.run; rw [List.foldl_append]; rfl
  refine ⟨1, fun x => ?_⟩
  rw [e]
  generalize Session.run ops = s at h h1 h2
  by_cases ho : (s.ways (!d)).over = true
  · have e1 : s.step (.copy (!d) 1) = s := by
      unfold Session.step; dsimp only; rw [if_pos (Or.inl ho)]
    have e2 : s.step (.eof (!d)) = s := by
      unfold Session.step; dsimp only; rw [if_neg (by simp [ho])]
    rw [e1, e2]
    cases d <;> cases x <;> simp_all
  · have ho' : (s.ways (!d)).over = false := by simpa using ho
    by_cases hq : (s.ways (!d)).queue = []
    · have e1 : s.step (.copy (!d) 1) = s := by
        unfold Session.step; dsimp only; rw [if_pos (Or.inr (Or.inl hq))]
      have e2 : s.step (.eof (!d)) = s.finish (!d) := by
        unfold Session.step; dsimp only; rw [if_pos ⟨ho', hq, Or.inr h1⟩]
      rw [e1, e2]
      cases d <;> cases x <;> simp_all [Session.finish, Session.set]
    · have e1 : s.step (.copy (!d) 1) =
          (s.set (!d) { s.ways (!d) with queue := (s.ways (!d)).queue.drop 1 }).finish (!d) := by
        unfold Session.step; dsimp only; rw [if_neg (by simp [ho', hq]), if_pos h2]
      rw [e1]
      have e2 : ∀ t : Session, (t.ways (!d)).over = true → t.step (.eof (!d)) = t := by
        intro t ht; unfold Session.step; dsimp only; rw [if_neg (by simp [ht])]
      rw [e2 _ (by cases d <;> simp [Session.finish, Session.set])]
      cases d <;> cases x <;> simp_all [Session.finish, Session.set]

/-! ### Examples -/

/-- The name in a greeting of these examples. -/
def helloEx (_ : List Byte) : Str := "daskgateway-a".toList

/-- Routes with one cluster. -/
def routesEx (name : Str) : Str := if name = "a".toList then "10.0.0.1:8786".toList else []

/-- A greeting. -/
def greetingEx : Conn := [[0x16, 3, 1, 0, 1], [7]]

/-- One port for both, and room for four connections. -/
def configEx : Config := { shared := true, child := true, limit := 9, base := 5 }

/-- Two clients, one of which is connected with the scheduler. -/
def opsEx : List Op :=
  [.connect, .connect, .accept, .accept, .greeted 1 greetingEx routesEx, .dial 1, .connected 1 true]

example : (run configEx helloEx opsEx).conns = [.greeting, .piping "10.0.0.1:8786".toList false false] ∧
    (run configEx helloEx opsEx).life = .running ∧ used configEx (run configEx helloEx opsEx) = 8 ∧
    configEx.base ≤ configEx.limit := by decide +kernel

/-- Two more connections that send nothing cut off the one to the scheduler. -/
example : (run configEx helloEx (opsEx ++ [.connect, .connect, .accept, .accept])).life = .panicked ∧
    (run configEx helloEx (opsEx ++ [.connect, .connect, .accept, .accept])).conns = [.gone, .gone, .gone] := by
  decide +kernel

/-- A client that waits behind a silent one is served. -/
example : Hello greetingEx.flatten 6 ∧ helloEx (greetingEx.flatten.take 6) = "daskgateway-".toList ++ "a".toList ∧
    routesEx "a".toList ≠ [] ∧
    used configEx (run configEx helloEx [.connect, .connect]) + (run configEx helloEx [.connect, .connect]).backlog + 1 ≤
      configEx.limit := by
  refine ⟨⟨rfl, by decide, by decide, by decide⟩, rfl, by decide, by decide⟩

/-- The client of a connection with a scheduler has ended its sending: it stays. A connection that is not TLS is for the
HTTP server. -/
example : (run configEx helloEx (opsEx ++ [.over 1 true])).conns = [.greeting, .piping "10.0.0.1:8786".toList true false] ∧
    (run configEx helloEx (opsEx ++ [.greeted 0 [[71, 69, 84]] routesEx, .taken 0])).conns =
      [.web, .piping "10.0.0.1:8786".toList false false] := by decide +kernel

/-- The client ends its sending, and the loop to the client is over as well. -/
example : ((Session.run [.send true [1], .copy true 9, .fin true, .eof true]).ways true).over = true ∧
    ((Session.run [.send true [1], .copy true 9, .fin true, .eof true]).ways false).over = false := ⟨rfl, rfl⟩

end Verif.Serving
