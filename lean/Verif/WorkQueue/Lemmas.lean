import Verif.WorkQueue.Spec
set_option linter.unusedSectionVars false
set_option linter.unusedSimpArgs false
set_option linter.unusedVariables false
namespace Verif.WorkQueue
variable {α : Type} [DecidableEq α]

@[simp] theorem mem_addS {β : Type} [DecidableEq β] (x y : β) (s : List β) :
    y ∈ addS x s ↔ y = x ∨ y ∈ s := by
  unfold addS; split <;> grind

@[simp] theorem mem_delS {β : Type} [DecidableEq β] (x y : β) (s : List β) :
    y ∈ delS x s ↔ y ∈ s ∧ y ≠ x := by
  unfold delS; simp

omit [DecidableEq α] in
/-- State fields that the wake-ups leave alone. -/
theorem wakeup_fields (s : WQ α) :
    s.wakeup.queue = s.queue ∧ s.wakeup.processing = s.processing ∧ s.wakeup.dirty = s.dirty ∧
    s.wakeup.timers = s.timers ∧ s.wakeup.closed = s.closed ∧ s.wakeup.backoff = s.backoff ∧
    s.wakeup.cancelledF = s.cancelledF ∧ s.wakeup.doomed = s.doomed := by
  unfold WQ.wakeup; split <;> simp

/-- Core invariant: the state is determined by the log. -/
structure Inv (s : WQ α) (log : List (Ev α)) : Prop where
  processing : ∀ x, x ∈ s.processing ↔ held x log = true
  dirty : ∀ x, x ∈ s.dirty ↔ pending x log = true
  ready : ∀ x, x ∈ readyOrder log ↔ pending x log = true ∧ held x log = false
  nodup : (readyOrder log).Nodup
  queue : s.queue = readyOrder log
  closed : s.closed = true ↔ Ev.closed ∈ log

theorem Inv.initial (b : Backoff α) : Inv (WQ.init b) [] := by
  constructor <;> simp [WQ.init, held, pending, readyOrder]

theorem Disciplined.tail {e : Ev α} {log : List (Ev α)} (h : Disciplined (e :: log)) :
    Disciplined log := fun later x earlier hh => h (e :: later) x earlier (by simp [hh])

theorem Inv.congr {s s' : WQ α} {log} (h : Inv s log) (h1 : s'.queue = s.queue)
    (h2 : s'.processing = s.processing) (h3 : s'.dirty = s.dirty) (h4 : s'.closed = s.closed) :
    Inv s' log := by
  constructor
  · rw [h2]; exact h.processing
  · rw [h3]; exact h.dirty
  · exact h.ready
  · exact h.nodup
  · rw [h1]; exact h.queue
  · rw [h4]; exact h.closed

/-- Events that say nothing about the items. -/
def Ev.quiet : Ev α → Bool
  | .requested .. | .failed _ | .blocked _ | .cancelled _ | .crashed _ => true
  | _ => false

theorem Inv.quiet {s : WQ α} {log e} (h : Inv s log) (he : Ev.quiet e = true) :
    Inv s (e :: log) := by
  obtain ⟨h1, h2, h3, h4, h5, h6⟩ := h
  cases e <;> simp [Ev.quiet] at he <;>
    exact ⟨by simpa [held], by simpa [pending], by simpa [held, pending, readyOrder],
      by simpa [readyOrder], by simpa [readyOrder], by simpa⟩

theorem Inv.quietOf {s s' : WQ α} {log e} (h : Inv s log) (he : Ev.quiet e = true)
    (h1 : s'.queue = s.queue) (h2 : s'.processing = s.processing) (h3 : s'.dirty = s.dirty)
    (h4 : s'.closed = s.closed) : Inv s' (e :: log) := (h.congr h1 h2 h3 h4).quiet he

theorem Inv.put {s : WQ α} {log} (x : α) (h : Inv s log) (e : Ev α) (he : e = .put x ∨ e = .due x) :
    Inv (s.put x) (e :: log) := by
  obtain ⟨f1, f2, f3, f4, f5, -, -, -⟩ := wakeup_fields (s.put_ x)
  have hp : ∀ y, pending y (e :: log) = if x = y then true else pending y log := by
    intro y; rcases he with rfl | rfl <;> rfl
  have hh : ∀ y, held y (e :: log) = held y log := by
    intro y; rcases he with rfl | rfl <;> rfl
  have hr : readyOrder (e :: log) =
      if pending x log || held x log then readyOrder log else readyOrder log ++ [x] := by
    rcases he with rfl | rfl <;> rfl
  have hc : Ev.closed ∈ e :: log ↔ Ev.closed ∈ log := by rcases he with rfl | rfl <;> simp
  obtain ⟨h1, h2, h3, h4, h5, h6⟩ := h
  have e1 : (s.put x).processing = s.processing := by
    unfold WQ.put; rw [f2]; unfold WQ.put_; split <;> try rfl
    dsimp only; split <;> rfl
  have e2 : ∀ y, y ∈ (s.put x).dirty ↔ y = x ∨ y ∈ s.dirty := by
    intro y; unfold WQ.put; rw [f3]; unfold WQ.put_; split
    · grind
    · dsimp only; split <;> simp
  have e3 : (s.put x).closed = s.closed := by
    unfold WQ.put; rw [f5]; unfold WQ.put_; split <;> try rfl
    dsimp only; split <;> rfl
  have e4 : (s.put x).queue = if x ∈ s.dirty ∨ x ∈ s.processing then s.queue else s.queue ++ [x] := by
    unfold WQ.put; rw [f1]; unfold WQ.put_; split
    · rename_i hx; rw [if_pos (Or.inl hx)]
    · rename_i hx
      dsimp only; split
      · rename_i hy; rw [if_pos (Or.inr hy)]
      · rename_i hy; rw [if_neg (by rintro (h | h) <;> contradiction)]
  constructor
  · intro y; rw [e1, hh]; exact h1 y
  · intro y; rw [e2, hp]; have := h2 y; grind
  · intro y; rw [hr, hp, hh]; have := h3 y; have := h3 x; grind
  · rw [hr]; have := h3 x; split <;> grind
  · rw [e4, hr, h5]; have := h1 x; have := h2 x; grind
  · rw [e3, hc]; exact h6

theorem Inv.taskDone {s : WQ α} {log} (x : α) (h : Inv s log)
    (hd : held x log = true) : Inv (s.taskDone x) (.done x :: log) := by
  obtain ⟨h1, h2, h3, h4, h5, h6⟩ := h
  have e1 : ∀ y, y ∈ (s.taskDone x).processing ↔ y ∈ s.processing ∧ y ≠ x := by
    intro y; unfold WQ.taskDone; dsimp only; split
    · rw [(wakeup_fields _).2.1]; simp
    · simp
  have e2 : (s.taskDone x).dirty = s.dirty := by
    unfold WQ.taskDone; dsimp only; split
    · rw [(wakeup_fields _).2.2.1]
    · rfl
  have e3 : (s.taskDone x).closed = s.closed := by
    unfold WQ.taskDone; dsimp only; split
    · rw [(wakeup_fields _).2.2.2.2.1]
    · rfl
  have e4 : (s.taskDone x).queue = if x ∈ s.dirty then s.queue ++ [x] else s.queue := by
    unfold WQ.taskDone; dsimp only; split
    · rw [(wakeup_fields _).1]
    · rfl
  constructor
  · intro y; rw [e1]; simp only [held]; have := h1 y; grind
  · intro y; rw [e2]; simp only [pending]; exact h2 y
  · intro y; simp only [readyOrder, pending, held]; have := h3 y; have := h3 x; grind
  · simp only [readyOrder]; have := h3 x; split <;> grind
  · rw [e4, h5]; simp only [readyOrder]; have := h2 x; grind
  · rw [e3]; simpa using h6

/-- What `getLoop` does in a state described by the log. -/
theorem Inv.getLoop {s : WQ α} {log} (t : Nat) (h : Inv s log) :
    Inv (s.getLoop t).1 (evOf t (s.getLoop t).2 :: log) ∧
    (s.getLoop t).2 =
      if Ev.closed ∈ log then .closed
      else match readyOrder log with
        | [] => .blocked
        | x :: _ => .item x := by
  have hq := h.queue
  have hcl := h.closed
  unfold WQ.getLoop
  cases hs : s.queue with
  | nil =>
    rw [hs] at hq
    dsimp only
    by_cases hc : s.closed = true
    · simp only [hc, if_true, evOf]
      exact ⟨h.quiet (by rfl), by simp [hcl.1 hc]⟩
    · simp only [hc, if_false, evOf, Bool.false_eq_true]
      refine ⟨h.quietOf (by rfl) (by simp [hs]) (by rfl) (by rfl) (by simp [hc]), ?_⟩
      have : ¬ Ev.closed ∈ log := fun hh => hc (hcl.2 hh)
      simp [this, ← hq]
  | cons x q =>
    rw [hs] at hq
    dsimp only
    unfold WQ.get_
    by_cases hc : s.closed = true
    · simp only [hc, if_true, evOf]
      exact ⟨h.quiet (by rfl), by simp [hcl.1 hc]⟩
    · have hnc : ¬ Ev.closed ∈ log := fun hh => hc (hcl.2 hh)
      simp only [hc, hs, evOf, if_false, Bool.false_eq_true, hnc]
      obtain ⟨h1, h2, h3, h4, h5, h6⟩ := h
      have hx : pending x log = true ∧ held x log = false := (h3 x).1 (by simp [← hq])
      have hr : readyOrder (Ev.got t x :: log) = q := by simp [readyOrder, ← hq]
      have hnd : (x :: q).Nodup := hq ▸ h4
      refine ⟨⟨?_, ?_, ?_, ?_, ?_, ?_⟩, ?_⟩
      · intro y; simp only [held, mem_addS]; have := h1 y; grind
      · intro y; simp only [pending, mem_delS]; have := h2 y; grind
      · intro y; rw [hr]; simp only [pending, held]; have := h3 y; rw [← hq] at this; grind
      · rw [hr]; exact (List.nodup_cons.1 hnd).2
      · rw [hr]
      · simp [hnc]
      · simp [← hq]

/-- The three outcomes of `put_after`. -/
theorem putAfter_cases (s : WQ α) (now : Rat) (x : α) (d : Rat) :
    (sooner (timerOf s.timers x) (now + d) = false ∧ s.putAfter now x d = (s, false)) ∨
    (sooner (timerOf s.timers x) (now + d) = true ∧ d > 0 ∧
      s.putAfter now x d = ({ s with timers := setTimer s.timers x (now + d) }, false)) ∨
    (sooner (timerOf s.timers x) (now + d) = true ∧ ¬ d > 0 ∧
      s.putAfter now x d = (({ s with timers := delTimer s.timers x }).put x, true)) := by
  unfold WQ.putAfter
  cases hgo : sooner (timerOf s.timers x) (now + d)
  · left; simp [hgo]
  · right
    by_cases hd : d > 0
    · left; simp [hgo, hd]
    · right; simp [hgo, hd]

theorem Inv.putAfter {s : WQ α} {log} (now : Rat) (x : α) (d : Rat) (h : Inv s log) :
    Inv (s.putAfter now x d).1
      ((if (s.putAfter now x d).2 then Ev.due x else Ev.requested x (now + d)) :: log) := by
  rcases putAfter_cases s now x d with ⟨-, e⟩ | ⟨-, -, e⟩ | ⟨-, -, e⟩ <;> rw [e]
  · exact Inv.quiet (e := Ev.requested x (now + d)) h rfl
  · exact Inv.quietOf (e := Ev.requested x (now + d)) h rfl rfl rfl rfl rfl
  · exact Inv.put (s := { s with timers := delTimer s.timers x }) x
      (h.congr rfl rfl rfl rfl) _ (Or.inr rfl)

theorem Inv.step {s : WQ α} {log} (o : Op α) (h : Inv s log)
    (hd : Disciplined ((s.step o).2 ++ log)) : Inv (s.step o).1 ((s.step o).2 ++ log) := by
  cases o with
  | put x => exact h.put x _ (Or.inl rfl)
  | putAfter now x d => exact h.putAfter now x d
  | putBackoff now x =>
    exact Inv.putAfter (s := { s with backoff := (s.backoff.backoff x).1 }) now x _
      (h.congr rfl rfl rfl rfl)
  | resetBackoff x => exact h.congr rfl rfl rfl rfl
  | fire x =>
    simp only [WQ.step]
    split
    · exact h
    · exact Inv.put (s := { s with timers := delTimer s.timers x }) x
        (h.congr rfl rfl rfl rfl) _ (Or.inr rfl)
  | get t =>
    simp only [WQ.step]
    split
    · exact h
    · exact (h.getLoop t).1
  | resume t =>
    simp only [WQ.step]
    split
    · exact h.quietOf (by rfl) (by rfl) (by rfl) (by rfl) (by rfl)
    · split
      · exact h.quietOf (by rfl) (by rfl) (by rfl) (by rfl) (by rfl)
      · split
        · exact (Inv.getLoop (s := { s with woken := s.woken.erase t }) t
            (h.congr rfl rfl rfl rfl)).1
        · exact h
  | cancel t =>
    simp only [WQ.step]
    split
    · exact h
    · split
      · exact h.congr rfl rfl rfl rfl
      · split
        · exact h.congr rfl rfl rfl rfl
        · exact h
  | taskDone x => exact h.taskDone x (hd [] x log rfl)
  | close =>
    obtain ⟨h1, h2, h3, h4, h5, h6⟩ := h
    refine ⟨?_, ?_, ?_, ?_, ?_, ?_⟩
    · exact h1
    · exact h2
    · exact h3
    · exact h4
    · exact h5
    · simp [WQ.step, WQ.close, WQ.wakeupAll]

theorem step_log_length (s : WQ α) (o : Op α) : (s.step o).2.length ≤ 1 := by
  cases o <;> simp only [WQ.step] <;> (repeat' split) <;> simp

theorem Disciplined.of_append {a log : List (Ev α)} (h : Disciplined (a ++ log)) :
    Disciplined log := by
  induction a with
  | nil => exact h
  | cons e a ih => exact ih (Disciplined.tail h)

theorem exec_snoc (b : Backoff α) (ops : List (Op α)) (o : Op α) :
    exec b (ops ++ [o]) = stepLog (exec b ops) o := by
  simp [exec, List.foldl_append]

/-- Induction over histories, from the front. -/
theorem snoc_induction {β : Type} {P : List β → Prop} (h0 : P [])
    (h1 : ∀ l x, P l → P (l ++ [x])) (l : List β) : P l := by
  have : ∀ r : List β, P r.reverse := by
    intro r; induction r with
    | nil => exact h0
    | cons x r ih => simpa using h1 _ x ih
  simpa using this l.reverse

theorem inv_exec (b : Backoff α) (ops : List (Op α)) (hd : Disciplined (exec b ops).2) :
    Inv (exec b ops).1 (exec b ops).2 := by
  induction ops using snoc_induction with
  | h0 => exact Inv.initial b
  | h1 ops o ih =>
    rw [exec_snoc] at hd ⊢
    exact (ih hd.of_append).step o hd

/-- A property of each event relative to the events before it, checked when the event happens. -/
theorem log_induction (b : Backoff α) (Q : Ev α → List (Ev α) → Prop)
    (hstep : ∀ ops o e, Disciplined (exec b ops).2 → Inv (exec b ops).1 (exec b ops).2 →
      ((exec b ops).1.step o).2 = [e] → Q e (exec b ops).2)
    (ops : List (Op α)) (hd : Disciplined (exec b ops).2) :
    ∀ later e earlier, (exec b ops).2 = later ++ e :: earlier → Q e earlier := by
  induction ops using snoc_induction with
  | h0 => intro later e earlier h; simp [exec] at h
  | h1 ops o ih =>
    have hx := exec_snoc b ops o
    intro later e earlier h
    have hd' : Disciplined (((exec b ops).1.step o).2 ++ (exec b ops).2) := by
      rw [hx] at hd; exact hd
    have hd0 : Disciplined (exec b ops).2 := hd'.of_append
    have h' : ((exec b ops).1.step o).2 ++ (exec b ops).2 = later ++ e :: earlier := by
      rw [hx] at h; exact h
    have hl := step_log_length (exec b ops).1 o
    cases hev : ((exec b ops).1.step o).2 with
    | nil => rw [hev] at h'; exact ih hd0 later e earlier h'
    | cons e' r =>
      rw [hev] at hl h'
      have hr : r = [] := by cases r <;> simp_all
      subst hr
      cases later with
      | nil =>
        simp at h'
        obtain ⟨rfl, rfl⟩ := h'
        exact hstep ops o e' hd0 (inv_exec b ops hd0) hev
      | cons e'' later =>
        simp at h'
        exact ih hd0 later e earlier h'.2

theorem getLoop_ev {s : WQ α} {t : Nat} {x : α} {u : Nat}
    (h : [evOf t (s.getLoop t).2] = [Ev.got u x]) : (s.getLoop t).2 = .item x := by
  cases hr : (s.getLoop t).2 <;> simp_all [evOf]

/-- A delivery event comes from `getLoop` in a state described by the same log. -/
theorem got_source {s : WQ α} {log} (o : Op α) (h : Inv s log) {t x}
    (he : (s.step o).2 = [Ev.got t x]) :
    (∃ r, readyOrder log = x :: r) ∧ Ev.closed ∉ log := by
  have key : ∀ s' : WQ α, Inv s' log → (s'.getLoop t).2 = .item x →
      (∃ r, readyOrder log = x :: r) ∧ Ev.closed ∉ log := by
    intro s' hi hg
    have := (hi.getLoop t).2
    rw [hg] at this
    split at this
    · simp at this
    · split at this <;> simp at this
      subst this
      exact ⟨⟨_, by assumption⟩, by assumption⟩
  cases o with
  | put => simp [WQ.step] at he
  | putAfter => simp only [WQ.step] at he; split at he <;> simp at he
  | putBackoff => simp only [WQ.step] at he; split at he <;> simp at he
  | resetBackoff => simp [WQ.step] at he
  | fire => simp only [WQ.step] at he; split at he <;> simp at he
  | get u =>
    simp only [WQ.step] at he; split at he
    · simp at he
    · dsimp only at he
      have hu : u = t := by
        cases hr : (s.getLoop u).2 <;> simp_all [evOf]
      subst hu
      exact key s h (getLoop_ev he)
  | resume u =>
    simp only [WQ.step] at he; split at he
    · simp at he
    · split at he
      · simp at he
      · split at he
        · dsimp only at he
          have hu : u = t := by
            cases hr : (({ s with woken := s.woken.erase u } : WQ α).getLoop u).2 <;>
              simp_all [evOf]
          subst hu
          exact key _ (h.congr (s' := { s with woken := s.woken.erase u }) rfl rfl rfl rfl)
            (getLoop_ev he)
        · simp at he
  | cancel => simp only [WQ.step] at he; repeat' split at he
              all_goals simp at he
  | taskDone => simp [WQ.step] at he
  | close => simp [WQ.step] at he

end Verif.WorkQueue
