import Verif.Local.Model
/-! Properties C148 to C151: the processes of the local backend. -/
set_option linter.unusedSimpArgs false
set_option linter.unusedVariables false
namespace Verif.Local
open Verif.Backends (Sig)

/-! ### Specification -/

/-- Specification: all steps of a history are of the allowed kind. -/
def Allowed (temp : Nat → Bool) (ok : World → Op → Prop) : World → List Op → Prop
  | _, [] => True
  | w, op :: ops => ok w op ∧ Allowed temp ok (w.step temp op) ops

/-- Specification: a process id with which the gateway may have to do: that of a job that has not been stopped. -/
def Held (w : World) (pid : Nat) : Prop := ∃ j, w.stat j ≠ .stopped ∧ (w.pidOf j = some pid ∨ w.stat j = .spawned pid)

/-- Specification: no new process gets such an id. -/
def NoReuse (w : World) : Op → Prop
  | .spawn _ pid => ¬ Held w pid
  | .other pid => ¬ Held w pid
  | _ => True

/-- Specification: the gateway is not killed while it starts the process of a job, from the time at which the process is there
to that at which all of it is in the database. -/
def NotStarting (j : Nat) (w : World) : Op → Prop
  | .crash => (∀ pid, w.stat j ≠ .spawned pid) ∧ w.stat j ≠ .recorded
  | _ => True

/-! ### Lemmas -/

theorem inv_run {temp : Nat → Bool} {ok : World → Op → Prop} {I : World → Prop}
    (hstep : ∀ w op, I w → ok w op → I (w.step temp op)) (ops : List Op) (w : World) (h : Allowed temp ok w ops) (hi : I w) :
    I (w.run temp ops) := by
  induction ops generalizing w with
  | nil => exact hi
  | cons op ops ih => exact ih _ h.2 (hstep w op hi h.1)

theorem upd_same {α : Type} (f : Nat → α) (k : Nat) (v : α) : upd f k v k = v := if_pos rfl

theorem upd_ne {α : Type} (f : Nat → α) {k x : Nat} (v : α) (h : x ≠ k) : upd f k v x = f x := if_neg h

theorem upd_apply {α : Type} (f : Nat → α) (k x : Nat) (v : α) : upd f k v x = if x = k then v else f x := rfl

theorem kill_procs (w : World) (pid x : Nat) :
    (w.kill pid).procs x = if x = pid then (w.procs pid).map (fun p => { p with killed := true }) else w.procs x := by
  unfold World.kill
  split
  · rename_i p hp
    show upd w.procs pid _ x = _
    rw [upd_apply]
    split
    · rename_i e
      rw [hp]
      rfl
    · rfl
  · rename_i hp
    split
    · rename_i e
      subst e
      rw [hp]
      rfl
    · rfl

theorem kill_stat (w : World) (pid : Nat) : (w.kill pid).stat = w.stat := by unfold World.kill; split <;> rfl
theorem kill_pidOf (w : World) (pid : Nat) : (w.kill pid).pidOf = w.pidOf := by unfold World.kill; split <;> rfl
theorem kill_sent (w : World) (pid : Nat) : (w.kill pid).sent = w.sent := by unfold World.kill; split <;> rfl

/-! ### C148 -/

/-- The processes at the ids of jobs that have not been stopped are theirs. -/
private structure Own (w : World) : Prop where
  procs : ∀ j pid p, w.stat j ≠ .stopped → (w.pidOf j = some pid ∨ w.stat j = .spawned pid) → w.procs pid = some p →
    p.owner = some j
  sent : ∀ s ∈ w.sent, ∀ p, s.hit = some p → p.owner = some s.job

private theorem reload_spawned (s : Stat) (pid : Nat) : s.reload ≠ .spawned pid := by
  cases s <;> simp [Stat.reload]

private theorem reload_stopped (s : Stat) : s.reload = .stopped ↔ s = .stopped := by
  cases s <;> simp [Stat.reload]

/-- A step that gives a job another state, in which it has no process that is not in the database. -/
private theorem own_stat {w : World} (h : Own w) (j : Nat) (s : Stat) (hs : ∀ pid, s ≠ .spawned pid)
    (hn : w.stat j ≠ .stopped) : Own { w with stat := upd w.stat j s } := by
  refine ⟨fun k pid p h1 h2 h3 => ?_, h.sent⟩
  dsimp only at h1 h2 h3
  by_cases hk : k = j
  · subst hk
    rw [upd_same] at h1 h2
    rcases h2 with h2 | h2
    · exact h.procs k pid p hn (Or.inl h2) h3
    · exact absurd h2 (hs pid)
  · rw [upd_ne _ _ hk] at h1 h2
    exact h.procs k pid p h1 h2 h3

private theorem own_kill {w : World} (h : Own w) (pid : Nat) : Own (w.kill pid) := by
  refine ⟨fun k q p h1 h2 h3 => ?_, fun s hs => h.sent s (by rwa [kill_sent] at hs)⟩
  rw [kill_stat] at h1 h2
  rw [kill_pidOf] at h2
  rw [kill_procs] at h3
  split at h3
  · rename_i e
    subst e
    cases hp : w.procs q with
    | none => rw [hp] at h3; cases h3
    | some p' =>
      rw [hp] at h3
      injection h3 with h3
      rw [← h3]
      exact h.procs k q p' h1 h2 hp
  · exact h.procs k q p h1 h2 h3

private theorem own_step (temp : Nat → Bool) (w : World) (op : Op) (h : Own w) (ok : NoReuse w op) :
    Own (w.step temp op) := by
  cases op with
  | start j =>
    unfold World.step World.start
    dsimp only
    split
    · rename_i hc
      split
      · exact own_stat h j _ (fun _ => (by simp)) (by rw [hc]; simp)
      · have := own_stat h j .starting (fun _ => (by simp)) (by rw [hc]; simp)
        exact ⟨this.procs, this.sent⟩
    · exact h
  | spawn j pid =>
    unfold World.step World.spawn
    dsimp only
    split
    · rename_i hc
      refine ⟨fun k q p h1 h2 h3 => ?_, h.sent⟩
      dsimp only at h1 h2 h3
      by_cases hq : q = pid
      · subst hq
        rw [upd_same] at h3
        injection h3 with h3
        rw [← h3]
        by_cases hk : k = j
        · rw [hk]
        · rw [upd_ne _ _ hk] at h1 h2
          exact absurd ⟨k, h1, h2⟩ ok
      · rw [upd_ne _ _ hq] at h3
        by_cases hk : k = j
        · subst hk
          rw [upd_same] at h2
          rcases h2 with h2 | h2
          · exact h.procs k q p (by rw [hc.1]; simp) (Or.inl h2) h3
          · injection h2 with h2
            exact absurd h2.symm hq
        · rw [upd_ne _ _ hk] at h1 h2
          exact h.procs k q p h1 h2 h3
    · exact h
  | spawnFail j =>
    unfold World.step World.spawnFail
    dsimp only
    split
    · rename_i hc
      exact own_stat h j _ (fun _ => (by simp)) (by rw [hc]; simp)
    · exact h
  | record j =>
    unfold World.step World.record
    dsimp only
    split
    · rename_i pid hc
      refine ⟨fun k q p h1 h2 h3 => ?_, h.sent⟩
      dsimp only at h1 h2 h3
      by_cases hk : k = j
      · subst hk
        rw [upd_same, upd_same] at h2
        rcases h2 with h2 | h2
        · injection h2 with h2
          subst h2
          exact h.procs k pid p (by rw [hc]; simp) (Or.inr hc) h3
        · cases h2
      · rw [upd_ne _ _ hk] at h1
        rw [upd_ne _ _ hk, upd_ne _ _ hk] at h2
        exact h.procs k q p h1 h2 h3
    · exact h
  | mark j =>
    unfold World.step World.mark
    dsimp only
    split
    · rename_i hc
      exact own_stat h j _ (fun _ => (by simp)) (by rw [hc]; simp)
    · exact h
  | timeout j =>
    unfold World.step World.timeout
    dsimp only
    split
    · rename_i hc
      exact own_stat h j _ (fun _ => (by simp)) (by rw [hc]; simp)
    · rename_i pid hc
      have h' := own_stat (own_kill h pid) j .submitted (fun _ => (by simp)) (by rw [kill_stat, hc]; simp)
      rw [kill_stat] at h'
      exact h'
    · exact h
  | stop j =>
    unfold World.step World.stop
    dsimp only
    split
    · rename_i hc
      exact own_stat h j _ (fun _ => (by simp)) (by rw [hc]; simp)
    · rename_i hc
      split
      · exact own_stat h j _ (fun _ => (by simp)) (by rw [hc]; simp)
      · exact own_stat h j _ (fun _ => (by simp)) (by rw [hc]; simp)
    · exact h
  | signal j =>
    unfold World.step World.signal
    dsimp only
    split
    · rename_i i pid hc hp
      have key : ∀ w' : World, Own w' → w'.stat = w.stat → w'.pidOf = w.pidOf → w'.sent = w.sent →
          Own { w' with stat := upd w.stat j (.stopping i true), sent := w.sent ++ [⟨j, sigAt i, pid, w.procs pid⟩] } := by
        intro w' h' e1 e2 e3
        have h2 := own_stat h' j (.stopping i true) (fun _ => (by simp)) (by rw [e1, hc]; simp)
        rw [e1] at h2
        refine ⟨h2.procs, fun s hs => ?_⟩
        rcases List.mem_append.mp hs with hs | hs
        · exact h.sent s hs
        · rw [List.mem_singleton.mp hs]
          intro p hp'
          exact h.procs j pid p (by rw [hc]; simp) (Or.inl hp) hp'
      split
      · exact key _ (own_kill h pid) (kill_stat w pid) (kill_pidOf w pid) (kill_sent w pid)
      · exact key w h rfl rfl rfl
    · exact h
  | gone j =>
    unfold World.step World.gone
    dsimp only
    split
    · rename_i i pid hc hp
      split
      · exact own_stat h j _ (fun _ => (by simp)) (by rw [hc]; simp)
      · exact h
    · exact h
  | late j =>
    unfold World.step World.late
    dsimp only
    split
    · rename_i i hc
      split
      · exact own_stat h j _ (fun _ => (by simp)) (by rw [hc]; simp)
      · exact own_stat h j _ (fun _ => (by simp)) (by rw [hc]; simp)
    · exact h
  | crash =>
    refine ⟨fun k q p h1 h2 h3 => ?_, h.sent⟩
    have h1 : (w.stat k).reload ≠ .stopped := h1
    have h2 : w.pidOf k = some q ∨ (w.stat k).reload = .spawned q := h2
    rcases h2 with h2 | h2
    · exact h.procs k q p (fun e => h1 ((reload_stopped _).mpr e)) (Or.inl h2) h3
    · exact absurd h2 (reload_spawned _ _)
  | exit pid =>
    refine ⟨fun k q p h1 h2 h3 => ?_, h.sent⟩
    have h3 : upd w.procs pid none q = some p := h3
    by_cases hq : q = pid
    · subst hq
      rw [upd_same] at h3
      cases h3
    · rw [upd_ne _ _ hq] at h3
      exact h.procs k q p h1 h2 h3
  | other pid =>
    unfold World.step World.other
    dsimp only
    split
    · refine ⟨fun k q p h1 h2 h3 => ?_, h.sent⟩
      dsimp only at h1 h2 h3
      by_cases hq : q = pid
      · subst hq
        exact absurd ⟨k, h1, h2⟩ ok
      · rw [upd_ne _ _ hq] at h3
        exact h.procs k q p h1 h2 h3
    · exact h

private theorem own_init (others : Nat → Bool) : Own (.init others) :=
  ⟨fun j pid p h1 h2 h3 => (by rcases h2 with h2 | h2 <;> cases h2), fun s hs => (by cases hs)⟩

/-- C148: a signal of the gateway reaches no process but the one that was started for the job that is being stopped. What is
missing: this holds as long as no new process gets the id of the process of a job that has not been stopped, see
`C148_reuse_violated`. -/
theorem C148_signals_partial (temp others : Nat → Bool) (ops : List Op) (h : Allowed temp NoReuse (.init others) ops) :
    ∀ s ∈ (World.run temp (.init others) ops).sent, ∀ p, s.hit = some p → p.owner = some s.job :=
  (inv_run (own_step temp) ops _ h (own_init others)).sent

/-- The scheduler of a cluster ends by itself, the system gives its id to another process, and then the cluster is stopped. -/
def reuseOps : List Op :=
  [.start 0, .spawn 0 77, .record 0, .mark 0, .exit 77, .other 77, .stop 0, .signal 0, .late 0, .signal 0, .late 0, .signal 0]

/-- C148 fails when the id of a process is used again: the stop of a cluster whose scheduler has ended sends all three signals,
SIGKILL among them, to a process that has nothing to do with the gateway. -/
theorem C148_reuse_violated (temp : Nat → Bool) :
    (World.run temp (.init fun _ => false) reuseOps).sent =
      [⟨0, .int, 77, some ⟨none, false⟩⟩, ⟨0, .term, 77, some ⟨none, false⟩⟩, ⟨0, .kill, 77, some ⟨none, false⟩⟩] := by
  rfl

/-- A history in which no id is used again, with a signal to the own process. -/
example :
    let ops : List Op := [.start 0, .spawn 0 77, .record 0, .mark 0, .stop 0, .signal 0]
    Allowed (fun _ => false) NoReuse (.init fun _ => false) ops ∧
    (World.run (fun _ => false) (.init fun _ => false) ops).sent = [⟨0, .int, 77, some ⟨some 0, false⟩⟩] := by
  refine ⟨⟨trivial, ?_, trivial, trivial, trivial, trivial, trivial⟩, by decide +kernel⟩
  rintro ⟨j, _, h | h⟩
  · cases h
  · have h : upd (fun _ => Stat.created) 0 .starting j = .spawned 77 := h
    rw [upd_apply] at h
    split at h <;> cases h

/-! ### C149 and C150 -/

/-- Where the processes of a job are: killed, or known by their id. -/
private structure Known (j : Nat) (w : World) : Prop where
  known : ∀ pid p, w.procs pid = some p → p.owner = some j → p.killed = true ∨ w.stat j = .spawned pid ∨
    (w.pidOf j = some pid ∧ (w.stat j = .recorded ∨ w.stat j = .submitted ∨ ∃ i b, w.stat j = .stopping i b))
  done : ∀ i pid p, w.stat j = .stopping i true → 2 ≤ i → w.pidOf j = some pid → w.procs pid = some p → p.owner = some j →
    p.killed = true

private theorem known_other {j : Nat} {w w' : World} (h : Known j w) (h1 : w'.stat j = w.stat j) (h2 : w'.pidOf j = w.pidOf j)
    (h3 : ∀ pid p, w'.procs pid = some p → p.owner = some j →
      ∃ p', w.procs pid = some p' ∧ p'.owner = some j ∧ (p'.killed = true → p.killed = true)) : Known j w' := by
  refine ⟨fun pid p hp ho => ?_, fun i pid p hs hi hpid hp ho => ?_⟩
  · obtain ⟨p', a, b, c⟩ := h3 pid p hp ho
    rw [h1, h2]
    rcases h.known pid p' a b with k | k | k
    · exact Or.inl (c k)
    · exact Or.inr (Or.inl k)
    · exact Or.inr (Or.inr k)
  · obtain ⟨p', a, b, c⟩ := h3 pid p hp ho
    exact c (h.done i pid p' (by rw [← h1]; exact hs) hi (by rw [← h2]; exact hpid) a b)

private theorem kill_back (w : World) (q : Nat) {j pid : Nat} {p : Proc} (hp : (w.kill q).procs pid = some p)
    (ho : p.owner = some j) : ∃ p', w.procs pid = some p' ∧ p'.owner = some j ∧ (p'.killed = true → p.killed = true) := by
  rw [kill_procs] at hp
  split at hp
  · rename_i e
    subst e
    cases hq : w.procs pid with
    | none => rw [hq] at hp; cases hp
    | some p' =>
      rw [hq] at hp
      injection hp with hp
      subst hp
      exact ⟨p', rfl, ho, fun _ => rfl⟩
  · exact ⟨p, hp, ho, id⟩

/-- A step that gives the job a state of those after the start, and keeps the processes. -/
private theorem known_stat {j : Nat} {w : World} (h : Known j w) (s : Stat) (hs : ∀ i, s ≠ .stopping i true)
    (hk : ∀ pid p, w.procs pid = some p → p.owner = some j → p.killed = true ∨
      (w.pidOf j = some pid ∧ (s = .recorded ∨ s = .submitted ∨ ∃ i b, s = .stopping i b))) :
    Known j { w with stat := upd w.stat j s } := by
  refine ⟨fun pid p hp ho => ?_, fun i pid p hi => ?_⟩
  · show _ ∨ upd w.stat j s j = _ ∨ (_ ∧ (upd w.stat j s j = _ ∨ upd w.stat j s j = _ ∨ ∃ i b, upd w.stat j s j = _))
    rw [upd_same]
    rcases hk pid p hp ho with k | k
    · exact Or.inl k
    · exact Or.inr (Or.inr k)
  · have hi : upd w.stat j s j = .stopping i true := hi
    rw [upd_same] at hi
    exact absurd hi (hs i)

private theorem stat_other {j k : Nat} (w : World) (s : Stat) (hk : k ≠ j) : Known j w → Known j { w with stat := upd w.stat k s } :=
  fun h => known_other h (upd_ne _ _ (Ne.symm hk)) rfl (fun pid p hp ho => ⟨p, hp, ho, id⟩)

private theorem known_step (temp : Nat → Bool) (j : Nat) (w : World) (op : Op) (h : Known j w) (ok : NotStarting j w op) :
    Known j (w.step temp op) := by
  cases op with
  | start k =>
    unfold World.step World.start
    dsimp only
    split
    · rename_i hc
      by_cases hk : k = j
      · subst hk
        have hkill : ∀ pid p, w.procs pid = some p → p.owner = some k → p.killed = true := by
          intro pid p hp ho
          rcases h.known pid p hp ho with e | e | ⟨_, e | e | ⟨i, b, e⟩⟩
          · exact e
          all_goals rw [hc] at e; cases e
        split
        · exact known_stat h _ (fun i => (by simp)) (fun pid p hp ho => Or.inl (hkill pid p hp ho))
        · have := known_stat h .starting (fun i => (by simp)) (fun pid p hp ho => Or.inl (hkill pid p hp ho))
          exact ⟨this.known, this.done⟩
      · split
        · exact stat_other w _ hk h
        · have := stat_other w .starting hk h
          exact ⟨this.known, this.done⟩
    · exact h
  | spawn k q =>
    unfold World.step World.spawn
    dsimp only
    split
    · rename_i hc
      by_cases hk : k = j
      · subst hk
        refine ⟨fun pid p hp ho => ?_, fun i pid p hs => ?_⟩
        · show _ ∨ upd w.stat k (.spawned q) k = _ ∨ _
          rw [upd_same]
          have hp : upd w.procs q _ pid = some p := hp
          by_cases hq : pid = q
          · subst hq
            exact Or.inr (Or.inl rfl)
          · rw [upd_ne _ _ hq] at hp
            rcases h.known pid p hp ho with e | e | ⟨_, e | e | ⟨i, b, e⟩⟩
            · exact Or.inl e
            all_goals rw [hc.1] at e; cases e
        · have hs : upd w.stat k (.spawned q) k = _ := hs
          rw [upd_same] at hs
          cases hs
      · refine known_other h (upd_ne _ _ (Ne.symm hk)) rfl (fun pid p hp ho => ?_)
        have hp : upd w.procs q _ pid = some p := hp
        by_cases hq : pid = q
        · subst hq
          rw [upd_same] at hp
          injection hp with hp
          subst hp
          injection ho with ho
          exact absurd ho hk
        · rw [upd_ne _ _ hq] at hp
          exact ⟨p, hp, ho, id⟩
    · exact h
  | spawnFail k =>
    unfold World.step World.spawnFail
    dsimp only
    split
    · rename_i hc
      by_cases hk : k = j
      · subst hk
        refine known_stat h _ (fun i => (by simp)) (fun pid p hp ho => ?_)
        rcases h.known pid p hp ho with e | e | ⟨_, e | e | ⟨i, b, e⟩⟩
        · exact Or.inl e
        all_goals rw [hc] at e; cases e
      · exact stat_other w _ hk h
    · exact h
  | record k =>
    unfold World.step World.record
    dsimp only
    split
    · rename_i q hc
      by_cases hk : k = j
      · subst hk
        refine ⟨fun pid p hp ho => ?_, fun i pid p hs => ?_⟩
        · show _ ∨ upd w.stat k .recorded k = _ ∨ (upd w.pidOf k (some q) k = _ ∧ (upd w.stat k .recorded k = _ ∨ _))
          rw [upd_same, upd_same]
          rcases h.known pid p hp ho with e | e | ⟨_, e | e | ⟨i, b, e⟩⟩
          · exact Or.inl e
          · rw [hc] at e
            injection e with e
            exact Or.inr (Or.inr ⟨by rw [e], Or.inl rfl⟩)
          all_goals rw [hc] at e; cases e
        · have hs : upd w.stat k .recorded k = _ := hs
          rw [upd_same] at hs
          cases hs
      · exact known_other h (upd_ne _ _ (Ne.symm hk)) (upd_ne _ _ (Ne.symm hk)) (fun pid p hp ho => ⟨p, hp, ho, id⟩)
    · exact h
  | mark k =>
    unfold World.step World.mark
    dsimp only
    split
    · rename_i hc
      by_cases hk : k = j
      · subst hk
        refine known_stat h _ (fun i => (by simp)) (fun pid p hp ho => ?_)
        rcases h.known pid p hp ho with e | e | ⟨a, e | e | ⟨i, b, e⟩⟩
        · exact Or.inl e
        · rw [hc] at e; cases e
        · exact Or.inr ⟨a, Or.inr (Or.inl rfl)⟩
        all_goals rw [hc] at e; cases e
      · exact stat_other w _ hk h
    · exact h
  | timeout k =>
    unfold World.step World.timeout
    dsimp only
    split
    · rename_i hc
      by_cases hk : k = j
      · subst hk
        refine known_stat h _ (fun i => (by simp)) (fun pid p hp ho => ?_)
        rcases h.known pid p hp ho with e | e | ⟨_, e | e | ⟨i, b, e⟩⟩
        · exact Or.inl e
        all_goals rw [hc] at e; cases e
      · exact stat_other w _ hk h
    · rename_i q hc
      by_cases hk : k = j
      · subst hk
        refine ⟨fun pid p hp ho => ?_, fun i pid p hs => ?_⟩
        · left
          have hp : (w.kill q).procs pid = some p := hp
          obtain ⟨p', a, b, c⟩ := kill_back w q hp ho
          rcases h.known pid p' a b with e | e | ⟨_, e | e | ⟨i, b, e⟩⟩
          · exact c e
          · rw [hc] at e
            injection e with e
            subst e
            rw [kill_procs, if_pos rfl, a] at hp
            injection hp with hp
            rw [← hp]
          all_goals rw [hc] at e; cases e
        · have hs : upd w.stat k .submitted k = _ := hs
          rw [upd_same] at hs
          cases hs
      · refine known_other h (upd_ne _ _ (Ne.symm hk)) ?_ (fun pid p hp ho => kill_back w q hp ho)
        show (w.kill q).pidOf j = _
        rw [kill_pidOf]
    · exact h
  | stop k =>
    unfold World.step World.stop
    dsimp only
    split
    · rename_i hc
      by_cases hk : k = j
      · subst hk
        refine known_stat h _ (fun i => (by simp)) (fun pid p hp ho => ?_)
        rcases h.known pid p hp ho with e | e | ⟨_, e | e | ⟨i, b, e⟩⟩
        · exact Or.inl e
        all_goals rw [hc] at e; cases e
      · exact stat_other w _ hk h
    · rename_i hc
      split
      · rename_i hn
        by_cases hk : k = j
        · subst hk
          refine known_stat h _ (fun i => (by simp)) (fun pid p hp ho => ?_)
          rcases h.known pid p hp ho with e | e | ⟨a, _⟩
          · exact Or.inl e
          · rw [hc] at e; cases e
          · rw [hn] at a; cases a
        · exact stat_other w _ hk h
      · by_cases hk : k = j
        · subst hk
          refine known_stat h _ (fun i => (by simp)) (fun pid p hp ho => ?_)
          rcases h.known pid p hp ho with e | e | ⟨a, _⟩
          · exact Or.inl e
          · rw [hc] at e; cases e
          · exact Or.inr ⟨a, Or.inr (Or.inr ⟨0, false, rfl⟩)⟩
        · exact stat_other w _ hk h
    · exact h
  | signal k =>
    unfold World.step World.signal
    dsimp only
    split
    · rename_i i q hc hq
      by_cases hk : k = j
      · subst hk
        have key : ∀ w' : World, w'.pidOf = w.pidOf →
            (∀ pid p, w'.procs pid = some p → p.owner = some k →
              ∃ p', w.procs pid = some p' ∧ p'.owner = some k ∧ (p'.killed = true → p.killed = true)) →
            (sigAt i = .kill → ∀ p, w'.procs q = some p → p.killed = true) →
            Known k { w' with stat := upd w.stat k (.stopping i true), sent := w.sent ++ [⟨k, sigAt i, q, w.procs q⟩] } := by
          intro w' e1 e2 e3
          refine ⟨fun pid p hp ho => ?_, fun i' pid p hs hi hpid hp ho => ?_⟩
          · show _ ∨ upd w.stat k (.stopping i true) k = _ ∨ (w'.pidOf k = _ ∧ (upd w.stat k (.stopping i true) k = _ ∨
              upd w.stat k (.stopping i true) k = _ ∨ ∃ i b, upd w.stat k _ k = _))
            rw [upd_same, e1]
            obtain ⟨p', a, b, c⟩ := e2 pid p hp ho
            rcases h.known pid p' a b with e | e | ⟨e, _⟩
            · exact Or.inl (c e)
            · rw [hc] at e; cases e
            · exact Or.inr (Or.inr ⟨e, Or.inr (Or.inr ⟨i, true, rfl⟩)⟩)
          · have hs : upd w.stat k (.stopping i true) k = _ := hs
            rw [upd_same] at hs
            injection hs with hs _
            subst hs
            have hpid : w'.pidOf k = some pid := hpid
            rw [e1, hq] at hpid
            injection hpid with hpid
            subst hpid
            refine e3 ?_ p hp
            match i, hi with
            | i + 2, _ => rfl
        split
        · refine key _ (kill_pidOf w q) (fun pid p hp ho => kill_back w q hp ho) (fun _ p hp => ?_)
          rw [kill_procs, if_pos rfl] at hp
          cases hw : w.procs q with
          | none => rw [hw] at hp; cases hp
          | some p' =>
            rw [hw] at hp
            injection hp with hp
            rw [← hp]
        · rename_i hns
          exact key w rfl (fun pid p hp ho => ⟨p, hp, ho, id⟩) (fun e => absurd e hns)
      · split
        · refine known_other h (upd_ne _ _ (Ne.symm hk)) ?_ (fun pid p hp ho => kill_back w q hp ho)
          show (w.kill q).pidOf j = _
          rw [kill_pidOf]
        · exact known_other h (upd_ne _ _ (Ne.symm hk)) rfl (fun pid p hp ho => ⟨p, hp, ho, id⟩)
    · exact h
  | gone k =>
    unfold World.step World.gone
    dsimp only
    split
    · rename_i i q hc hq
      split
      · rename_i hn
        by_cases hk : k = j
        · subst hk
          refine known_stat h _ (fun i => (by simp)) (fun pid p hp ho => ?_)
          rcases h.known pid p hp ho with e | e | ⟨a, _⟩
          · exact Or.inl e
          · rw [hc] at e; cases e
          · rw [hq] at a
            injection a with a
            subst a
            rw [hn] at hp
            cases hp
        · exact stat_other w _ hk h
      · exact h
    · exact h
  | late k =>
    unfold World.step World.late
    dsimp only
    split
    · rename_i i hc
      split
      · by_cases hk : k = j
        · subst hk
          refine known_stat h _ (fun i => (by simp)) (fun pid p hp ho => ?_)
          rcases h.known pid p hp ho with e | e | ⟨a, _⟩
          · exact Or.inl e
          · rw [hc] at e; cases e
          · exact Or.inr ⟨a, Or.inr (Or.inr ⟨i + 1, false, rfl⟩)⟩
        · exact stat_other w _ hk h
      · rename_i hi
        by_cases hk : k = j
        · subst hk
          refine known_stat h _ (fun i => (by simp)) (fun pid p hp ho => ?_)
          rcases h.known pid p hp ho with e | e | ⟨a, _⟩
          · exact Or.inl e
          · rw [hc] at e; cases e
          · exact Or.inl (h.done i pid p hc (by omega) a hp ho)
        · exact stat_other w _ hk h
    · exact h
  | crash =>
    have hstat : (w.step temp .crash).stat j = (w.stat j).reload := rfl
    refine ⟨fun pid p hp ho => ?_, fun i pid p hs => ?_⟩
    · rw [hstat]
      rcases h.known pid p hp ho with e | e | ⟨a, e | e | ⟨i, b, e⟩⟩
      · exact Or.inl e
      · exact absurd e (ok.1 pid)
      · exact absurd e ok.2
      · rw [e]; exact Or.inr (Or.inr ⟨a, Or.inr (Or.inl rfl)⟩)
      · rw [e]; exact Or.inr (Or.inr ⟨a, Or.inr (Or.inl rfl)⟩)
    · rw [hstat] at hs
      cases hw : w.stat j <;> rw [hw] at hs <;> cases hs
  | exit q =>
    refine known_other h rfl rfl (fun pid p hp ho => ?_)
    have hp : upd w.procs q none pid = some p := hp
    by_cases hq : pid = q
    · subst hq
      rw [upd_same] at hp
      cases hp
    · rw [upd_ne _ _ hq] at hp
      exact ⟨p, hp, ho, id⟩
  | other q =>
    unfold World.step World.other
    dsimp only
    split
    · refine known_other h rfl rfl (fun pid p hp ho => ?_)
      have hp : upd w.procs q _ pid = some p := hp
      by_cases hq : pid = q
      · subst hq
        rw [upd_same] at hp
        injection hp with hp
        subst hp
        cases ho
      · rw [upd_ne _ _ hq] at hp
        exact ⟨p, hp, ho, id⟩
    · exact h

private theorem known_init (j : Nat) (others : Nat → Bool) : Known j (.init others) := by
  refine ⟨fun pid p hp ho => ?_, fun i pid p hs => (by cases hs)⟩
  have hp : (if others pid then some (⟨none, false⟩ : Proc) else none) = some p := hp
  split at hp
  · injection hp with hp
    subst hp
    cases ho
  · cases hp

/-- C149: when the gateway has stopped a job, every process that it started for it has ended, or got a SIGKILL. Holds whichever ids are
used again. What is missing: the gateway must not be killed while the job is started, see `C149_crash_violated`,
`C149_again_violated` and `C149_created_violated`. -/
theorem C149_ended_partial (temp others : Nat → Bool) (j : Nat) (ops : List Op)
    (h : Allowed temp (NotStarting j) (.init others) ops)
    (hs : (World.run temp (.init others) ops).stat j = .stopped) (pid : Nat) (p : Proc)
    (hp : (World.run temp (.init others) ops).procs pid = some p) (ho : p.owner = some j) : p.killed = true := by
  have hk := inv_run (known_step temp j) ops _ h (known_init j others)
  rcases hk.known pid p hp ho with e | e | ⟨_, e | e | ⟨i, b, e⟩⟩
  · exact e
  all_goals rw [hs] at e; cases e

/-- The gateway is killed when the process of a worker is there but not in the database. -/
def crashOps : List Op := [.start 0, .spawn 0 77, .crash, .start 0, .stop 0]

/-- C149 fails when the gateway is killed just after the start of a process: the log file is there already, so the worker counts as
failed and is stopped, and its process goes on. -/
theorem C149_crash_violated :
    (World.run (fun _ => false) (.init fun _ => false) crashOps).stat 0 = .stopped ∧
    (World.run (fun _ => false) (.init fun _ => false) crashOps).procs 77 = some ⟨some 0, false⟩ := by
  decide +kernel

/-- The gateway is killed before it puts down the status of a cluster, and starts a second scheduler. -/
def againOps : List Op :=
  [.start 0, .spawn 0 77, .record 0, .crash, .start 0, .spawn 0 78, .record 0, .mark 0, .stop 0, .signal 0, .exit 78, .gone 0]

/-- C149: without a directory for clusters, a scheduler is started twice, and only the second one is stopped. -/
theorem C149_again_violated :
    (World.run (fun _ => true) (.init fun _ => false) againOps).stat 0 = .stopped ∧
    (World.run (fun _ => true) (.init fun _ => false) againOps).procs 77 = some ⟨some 0, false⟩ := by
  decide +kernel

/-- C149: a cluster that a restarted gateway takes for a new one is stopped without its process, although the id of the process
is in the database. -/
theorem C149_created_violated :
    let w := World.run (fun _ => true) (.init fun _ => false) [.start 0, .spawn 0 77, .record 0, .crash, .stop 0]
    w.stat 0 = .stopped ∧ w.pidOf 0 = some 77 ∧ w.procs 77 = some ⟨some 0, false⟩ := by
  decide +kernel

/-- A history with a crash that leaves nothing behind, with a process that does not end on its own. -/
example :
    let ops : List Op := [.start 0, .crash, .start 0, .start 1, .spawn 1 5, .record 1, .mark 1, .crash, .stop 1, .signal 1,
      .late 1, .signal 1, .late 1, .signal 1, .late 1]
    let w := World.run (fun _ => false) (.init fun _ => false) ops
    w.stat 1 = .stopped ∧ w.procs 5 = some ⟨some 1, true⟩ ∧ w.sent.map Sent.sig = [.int, .term, .kill] := by
  decide +kernel

/-- In this history the gateway is killed at other times only. -/
example : Allowed (fun _ => false) (NotStarting 1) (.init fun _ => false)
    [.start 1, .crash, .start 0, .start 1, .spawnFail 1, .crash, .stop 1] := by
  refine ⟨trivial, ⟨fun pid h => ?_, fun h => ?_⟩, trivial, trivial, trivial, ⟨fun pid h => ?_, fun h => ?_⟩, trivial, trivial⟩
  all_goals cases h

/-- C150: while the process of a job that was submitted runs, checks say so. -/
theorem C150_alive_partial (temp others : Nat → Bool) (j : Nat) (ops : List Op)
    (h : Allowed temp (NotStarting j) (.init others) ops)
    (hs : (World.run temp (.init others) ops).stat j = .submitted) (pid : Nat)
    (hp : (World.run temp (.init others) ops).procs pid = some ⟨some j, false⟩) :
    (World.run temp (.init others) ops).check j = true := by
  have hk := inv_run (known_step temp j) ops _ h (known_init j others)
  rcases hk.known pid _ hp rfl with e | e | ⟨e, _⟩
  · cases e
  · rw [hs] at e; cases e
  · unfold World.check
    rw [e]
    dsimp only
    rw [hp]
    rfl

/-- C150: if checks say so, the process runs. What is missing: this holds as long as no new process gets its id, see
`C150_reuse_violated`. -/
theorem C150_gone_partial (temp others : Nat → Bool) (j : Nat) (ops : List Op)
    (h : Allowed temp NoReuse (.init others) ops)
    (hs : (World.run temp (.init others) ops).stat j ≠ .stopped) (hc : (World.run temp (.init others) ops).check j = true) :
    ∃ pid p, (World.run temp (.init others) ops).procs pid = some p ∧ p.owner = some j := by
  have ho := inv_run (own_step temp) ops _ h (own_init others)
  generalize World.run temp (.init others) ops = w at ho hs hc
  unfold World.check at hc
  split at hc
  · cases hc
  · rename_i pid hp
    cases hq : w.procs pid with
    | none => rw [hq] at hc; cases hc
    | some p => exact ⟨pid, p, hq, ho.procs j pid p hs (Or.inl hp) hq⟩

/-- C150 fails when the id of a process is used again: a scheduler that has ended is said to run. -/
theorem C150_reuse_violated :
    let w := World.run (fun _ => false) (.init fun _ => false)
      [.start 0, .spawn 0 77, .record 0, .mark 0, .exit 77, .other 77]
    w.check 0 = true ∧ w.stat 0 = .submitted ∧ w.procs 77 = some ⟨none, false⟩ := by
  decide +kernel

/-- A process that has ended is found out. -/
example :
    let w := World.run (fun _ => false) (.init fun _ => false) [.start 0, .spawn 0 77, .record 0, .mark 0]
    w.check 0 = true ∧ (w.exit 77).check 0 = false := by
  decide +kernel

/-! ### C151 -/

/-- Specification: these rights are those of the user with this name. -/
structure RightsOf (passwd : List (Str × Nat × Nat)) (group : List (Nat × List Str)) (name : Str) (c : Creds) : Prop where
  account : lookup passwd name = some (c.uid, c.gid)
  groups : ∀ g, g ∈ c.groups ↔ ∃ members, (g, members) ∈ group ∧ name ∈ members

private theorem lookupUser_groups (passwd : List (Str × Nat × Nat)) (group : List (Nat × List Str)) (name : Str) (u : User)
    (h : lookupUser passwd group name = some u) :
    lookup passwd name = some (u.uid, u.gid) ∧ ∀ g, g ∈ u.groups ↔ ∃ members, (g, members) ∈ group ∧ name ∈ members := by
  unfold lookupUser at h
  cases hl : lookup passwd name with
  | none => rw [hl] at h; cases h
  | some e =>
    rw [hl] at h
    injection h with h
    subst h
    refine ⟨rfl, fun g => ?_⟩
    simp only [List.mem_map, List.mem_filter, List.contains_iff_mem]
    constructor
    · rintro ⟨⟨g', m⟩, ⟨h1, h2⟩, rfl⟩
      exact ⟨m, h1, h2⟩
    · rintro ⟨m, h1, h2⟩
      exact ⟨(g, m), ⟨h1, h2⟩, rfl⟩

/-- C151: the processes of a cluster run with the rights of its user, in the directory of the cluster. What is missing: the further
groups if they cannot be set, see `C151_groups_violated`. -/
theorem C151_rights_partial (passwd : List (Str × Nat × Nat)) (group : List (Nat × List Str)) (a : Allows)
    (name workdir : Str) (gateway c : Creds) (h : startProcess passwd group a name workdir gateway = some c)
    (hg : a.setgroups = true) : RightsOf passwd group name c ∧ c.dir = workdir := by
  unfold startProcess at h
  split at h
  · cases h
  · rename_i u hu
    obtain ⟨h1, h2⟩ := lookupUser_groups passwd group name u hu
    unfold preexec at h
    rw [hg] at h
    dsimp only at h
    split at h
    · cases h
    · split at h
      · cases h
      · split at h
        · cases h
        · injection h with h
          subst h
          exact ⟨⟨h1, h2⟩, rfl⟩

/-- C151: in any case user and group are those of the user of the cluster. -/
theorem C151_account (passwd : List (Str × Nat × Nat)) (group : List (Nat × List Str)) (a : Allows)
    (name workdir : Str) (gateway c : Creds) (h : startProcess passwd group a name workdir gateway = some c) :
    lookup passwd name = some (c.uid, c.gid) ∧ c.dir = workdir := by
  unfold startProcess at h
  split at h
  · cases h
  · rename_i u hu
    obtain ⟨h1, h2⟩ := lookupUser_groups passwd group name u hu
    unfold preexec at h
    dsimp only at h
    split at h
    · cases h
    · split at h
      · cases h
      · split at h
        · cases h
        · injection h with h
          subst h
          refine ⟨?_, rfl⟩
          rw [h1]
          cases a.setgroups <;> rfl

/-- C151: nothing is run if the account is unknown or the user, the group or the directory cannot be changed to. -/
theorem C151_refused (passwd : List (Str × Nat × Nat)) (group : List (Nat × List Str)) (a : Allows)
    (name workdir : Str) (gateway : Creds) :
    startProcess passwd group a name workdir gateway = none ↔
      lookup passwd name = none ∨ a.setgid = false ∨ a.setuid = false ∨ a.chdir = false := by
  unfold startProcess lookupUser
  cases lookup passwd name with
  | none => simp
  | some e =>
    dsimp only [Option.map_some]
    unfold preexec
    cases a.setgid <;> cases a.setgroups <;> cases a.setuid <;> cases a.chdir <;> simp

/-- C151 fails where the operating system does not allow to set the further groups (as in some containers): that is only printed,
and the process of the user is a member of the groups of the gateway. -/
theorem C151_groups_violated :
    startProcess [("alice".toList, 1000, 1000)] [(0, ["root".toList]), (27, ["alice".toList])]
        { setgid := true, setgroups := false, setuid := true, chdir := true } "alice".toList "/w".toList
        { uid := 0, gid := 0, groups := [0, 4], dir := "/".toList } =
      some { uid := 1000, gid := 1000, groups := [0, 4], dir := "/w".toList } ∧
    ¬ RightsOf [("alice".toList, 1000, 1000)] [(0, ["root".toList]), (27, ["alice".toList])] "alice".toList
      { uid := 1000, gid := 1000, groups := [0, 4], dir := "/w".toList } := by
  refine ⟨by decide +kernel, fun h => ?_⟩
  obtain ⟨m, h1, h2⟩ := (h.groups 0).mp (by simp)
  simp only [List.mem_cons, Prod.mk.injEq, List.not_mem_nil, or_false, true_and] at h1
  rcases h1 with h1 | ⟨h1, _⟩
  · subst h1
    revert h2
    decide +kernel
  · cases h1

/-- A process of a user with a further group. -/
example :
    startProcess [("alice".toList, 1000, 1000)] [(0, ["root".toList]), (27, ["alice".toList])]
        { setgid := true, setgroups := true, setuid := true, chdir := true } "alice".toList "/w".toList
        { uid := 0, gid := 0, groups := [0, 4], dir := "/".toList } =
      some { uid := 1000, gid := 1000, groups := [27], dir := "/w".toList } := by decide +kernel

end Verif.Local
