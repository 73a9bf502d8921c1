import Verif.WorkQueue.Lemmas
set_option linter.unusedSectionVars false
set_option linter.unusedSimpArgs false
set_option linter.unusedVariables false
namespace Verif.WorkQueue
variable {α : Type} [DecidableEq α]

/-! ### Timers -/

theorem timerOf_delTimer (ts : List (α × Rat)) (x y : α) :
    timerOf (delTimer ts x) y = if y = x then none else timerOf ts y := by
  unfold timerOf delTimer
  induction ts with
  | nil => simp
  | cons p ts ih =>
    by_cases h : p.1 = x
    · simp only [h, List.filter_cons, ne_eq, not_true_eq_false, decide_false, Bool.false_eq_true,
        if_false, List.find?_cons]
      rw [ih]
      by_cases hy : y = x
      · simp [hy]
      · have : ¬ x = y := fun h => hy h.symm
        simp [hy, this]
    · simp only [h, List.filter_cons, ne_eq, not_false_eq_true, decide_true, if_true,
        List.find?_cons]
      by_cases hy : p.1 = y
      · have : ¬ y = x := by rw [← hy]; exact h
        simp [hy, this]
      · simp only [hy, decide_false]
        exact ih

theorem timerOf_setTimer (ts : List (α × Rat)) (x y : α) (w : Rat) :
    timerOf (setTimer ts x w) y = if y = x then some w else timerOf ts y := by
  by_cases hy : x = y
  · subst hy; simp [setTimer, timerOf]
  · have h2 : ¬ y = x := fun h => hy h.symm
    have h3 : timerOf (setTimer ts x w) y = timerOf (delTimer ts x) y := by
      simp [setTimer, timerOf, hy]
    rw [h3, timerOf_delTimer]; simp [h2]

theorem nodup_delTimer (ts : List (α × Rat)) (x : α) (h : (ts.map (·.1)).Nodup) :
    ((delTimer ts x).map (·.1)).Nodup := by
  unfold delTimer
  induction ts with
  | nil => simp
  | cons p ts ih =>
    simp only [List.map_cons, List.nodup_cons] at h
    simp only [List.filter_cons]
    split
    · simp only [List.map_cons, List.nodup_cons]
      refine ⟨fun hm => h.1 ?_, ih h.2⟩
      simp only [List.mem_map, List.mem_filter] at hm ⊢
      obtain ⟨q, ⟨hq, -⟩, he⟩ := hm
      exact ⟨q, hq, he⟩
    · exact ih h.2

theorem nodup_setTimer (ts : List (α × Rat)) (x : α) (w : Rat) (h : (ts.map (·.1)).Nodup) :
    ((setTimer ts x w).map (·.1)).Nodup := by
  simp only [setTimer, List.map_cons, List.nodup_cons]
  refine ⟨?_, nodup_delTimer ts x h⟩
  simp [delTimer]

/-- Timers agree with the log. -/
structure TInv (s : WQ α) (log : List (Ev α)) : Prop where
  min : ∀ x, IsMin (outstanding x log) (timerOf s.timers x)
  nodup : (s.timers.map (·.1)).Nodup

theorem TInv.congr {s s' : WQ α} {log e} (h : TInv s log) (h1 : s'.timers = s.timers)
    (he : ∀ x, outstanding x (e :: log) = outstanding x log) : TInv s' (e :: log) := by
  constructor
  · intro x; rw [h1, he]; exact h.min x
  · rw [h1]; exact h.nodup

theorem put_timers (s : WQ α) (x : α) : (s.put x).timers = s.timers := by
  unfold WQ.put; rw [(wakeup_fields _).2.2.2.1]; unfold WQ.put_; split
  · rfl
  · dsimp only; split <;> rfl

theorem TInv.due {s s' : WQ α} {log} (x : α) (h : TInv s log)
    (h1 : s'.timers = delTimer s.timers x) : TInv s' (.due x :: log) := by
  constructor
  · intro y; rw [h1, timerOf_delTimer]; simp only [outstanding]
    by_cases hy : y = x
    · simp [hy, IsMin]
    · have h2 : ¬ x = y := fun h => hy h.symm
      simp only [hy, h2, if_false]; exact h.min y
  · rw [h1]; exact nodup_delTimer _ _ h.nodup

theorem TInv.putAfter {s : WQ α} {log} (now : Rat) (x : α) (d : Rat) (h : TInv s log) :
    TInv (s.putAfter now x d).1
      ((if (s.putAfter now x d).2 then Ev.due x else Ev.requested x (now + d)) :: log) := by
  rcases putAfter_cases s now x d with ⟨hs, e⟩ | ⟨hs, -, e⟩ | ⟨hs, -, e⟩ <;> rw [e]
  · constructor
    · intro y
      show IsMin (outstanding y (Ev.requested x (now + d) :: log)) (timerOf s.timers y)
      simp only [outstanding]
      split
      · rename_i hy; subst hy
        have hm := h.min x
        cases ht : timerOf s.timers x with
        | none => simp [ht, sooner] at hs
        | some m =>
          rw [ht] at hm hs
          simp only [sooner, decide_eq_false_iff_not, Rat.not_lt] at hs
          simp only [IsMin] at hm ⊢
          refine ⟨by simp [hm.1], ?_⟩
          intro w hw
          simp only [List.mem_cons] at hw
          rcases hw with rfl | hw
          · grind
          · exact hm.2 w hw
      · exact h.min y
    · exact h.nodup
  · constructor
    · intro y
      show IsMin (outstanding y (Ev.requested x (now + d) :: log))
        (timerOf (setTimer s.timers x (now + d)) y)
      rw [timerOf_setTimer]; simp only [outstanding]
      by_cases hy : y = x
      · subst hy
        simp only [if_true]
        have hm := h.min y
        cases ht : timerOf s.timers y with
        | none => rw [ht] at hm; simp only [IsMin] at hm ⊢; simp [hm, Rat.le_refl]
        | some m =>
          rw [ht] at hm hs
          simp only [sooner, decide_eq_true_eq] at hs
          simp only [IsMin] at hm ⊢
          refine ⟨by simp, ?_⟩
          intro w hw
          simp only [List.mem_cons] at hw
          rcases hw with rfl | hw
          · grind
          · have := hm.2 w hw; grind
      · have h2 : ¬ x = y := fun h => hy h.symm
        simp only [hy, h2, if_false]; exact h.min y
    · exact nodup_setTimer _ _ _ h.nodup
  · exact h.due x (by rw [put_timers])

theorem getLoop_timers (s : WQ α) (t : Nat) : (s.getLoop t).1.timers = s.timers := by
  unfold WQ.getLoop WQ.get_; split
  · split <;> rfl
  · split
    · rfl
    · split <;> rfl

theorem evOf_outstanding (t : Nat) (r : GetRes α) (log : List (Ev α)) (x : α) :
    outstanding x (evOf t r :: log) = outstanding x log := by
  cases r <;> rfl

theorem TInv.step {s : WQ α} {log} (o : Op α) (h : TInv s log) :
    TInv (s.step o).1 ((s.step o).2 ++ log) := by
  cases o with
  | put x => exact h.congr (put_timers s x) (fun _ => rfl)
  | putAfter now x d => exact h.putAfter now x d
  | putBackoff now x =>
    exact TInv.putAfter (s := { s with backoff := (s.backoff.backoff x).1 }) now x _
      ⟨h.min, h.nodup⟩
  | resetBackoff x => exact ⟨h.min, h.nodup⟩
  | fire x =>
    simp only [WQ.step]
    split
    · exact h
    · exact h.due x (put_timers _ _)
  | get t =>
    simp only [WQ.step]
    split
    · exact h
    · exact h.congr (getLoop_timers s t) (evOf_outstanding _ _ _)
  | resume t =>
    simp only [WQ.step]
    split
    · exact h.congr rfl (fun _ => rfl)
    · split
      · exact h.congr rfl (fun _ => rfl)
      · split
        · exact h.congr (getLoop_timers _ t) (evOf_outstanding _ _ _)
        · exact h
  | cancel t =>
    simp only [WQ.step]
    repeat' split
    all_goals exact ⟨h.min, h.nodup⟩
  | taskDone x =>
    refine h.congr ?_ (fun _ => rfl)
    simp only [WQ.step, WQ.taskDone]; split
    · rw [(wakeup_fields _).2.2.2.1]
    · rfl
  | close => exact h.congr rfl (fun _ => rfl)

theorem tinv_exec (b : Backoff α) (ops : List (Op α)) : TInv (exec b ops).1 (exec b ops).2 := by
  induction ops using snoc_induction with
  | h0 => exact ⟨fun x => by simp [exec, IsMin, outstanding, WQ.init, timerOf], by simp [exec, WQ.init]⟩
  | h1 ops o ih => rw [exec_snoc]; exact ih.step o

/-! ### Wake-ups -/

/-- Getters that are suspended on a future that is not done. -/
def WQ.blocked (s : WQ α) : List Nat := s.waiting.filter (fun w => w ∉ s.cancelledF)

/-- Bookkeeping of getters. -/
structure WInv (s : WQ α) : Prop where
  nodupW : s.waiting.Nodup
  nodupK : s.woken.Nodup
  disj : ∀ t ∈ s.waiting, t ∉ s.woken ∧ t ∉ s.doomed
  disjC : ∀ t ∈ s.woken, t ∉ s.cancelledF ∧ t ∉ s.doomed
  closed : s.closed = true → s.waiting = []

theorem wakeupNext_spec (c : List Nat) : ∀ ws : List Nat,
    (∀ r, wakeupNext c ws = (r, none) → r = [] ∧ ∀ w ∈ ws, w ∈ c) ∧
    (∀ r w, wakeupNext c ws = (r, some w) → ∃ p, ws = p ++ w :: r ∧ (∀ v ∈ p, v ∈ c) ∧ w ∉ c)
  | [] => by simp [wakeupNext]
  | v :: ws => by
    have ih := wakeupNext_spec c ws
    unfold wakeupNext
    by_cases h : v ∈ c
    · simp only [h, if_true]
      refine ⟨fun r hr => ?_, fun r w hr => ?_⟩
      · have := ih.1 r hr; simp_all
      · obtain ⟨p, hp, h1, h2⟩ := ih.2 r w hr
        exact ⟨v :: p, by simp [hp], by simpa [h] using h1, h2⟩
    · simp only [h, if_false]
      refine ⟨fun r hr => by simp at hr, fun r w hr => ?_⟩
      simp at hr
      exact ⟨[], by simp [hr], by simp, by simpa [← hr.2] using h⟩

/-- What `_wakeup_next` does to the getters. -/
theorem wakeup_cases (s : WQ α) :
    (s.wakeup.waiting = [] ∧ s.wakeup.woken = s.woken ∧ s.blocked = []) ∨
    (∃ p w r, s.waiting = p ++ w :: r ∧ (∀ v ∈ p, v ∈ s.cancelledF) ∧ w ∉ s.cancelledF ∧
      s.wakeup.waiting = r ∧ s.wakeup.woken = s.woken ++ [w]) := by
  have hs := wakeupNext_spec s.cancelledF s.waiting
  unfold WQ.wakeup
  split
  · rename_i ws hw
    left
    have := hs.1 _ hw
    refine ⟨this.1, rfl, ?_⟩
    simp only [WQ.blocked, List.filter_eq_nil_iff]
    intro a ha; simpa using this.2 a ha
  · rename_i ws w hw
    right
    obtain ⟨p, h1, h2, h3⟩ := hs.2 _ _ hw
    exact ⟨p, w, ws, h1, h2, h3, rfl, rfl⟩

theorem WInv.wakeup {s : WQ α} (h : WInv s) : WInv s.wakeup := by
  obtain ⟨-, -, -, -, hcl, -, hcf, hdm⟩ := wakeup_fields s
  obtain ⟨h1, h2, h3, h4, h5⟩ := h
  rcases wakeup_cases s with ⟨e1, e2, -⟩ | ⟨p, w, r, e0, e1, e2, e3, e4⟩
  · exact ⟨by simp [e1], by rw [e2]; exact h2, by simp [e1], by rw [e2, hcf, hdm]; exact h4, by simp [e1]⟩
  · rw [e0] at h1 h3 h5
    have hw := h3 w (by simp)
    refine ⟨?_, ?_, ?_, ?_, ?_⟩
    · rw [e3]; exact (List.nodup_cons.1 (List.nodup_append.1 h1).2.1).2
    · rw [e4]; grind
    · rw [e3, e4, hdm]; grind
    · rw [e4, hcf, hdm]; grind
    · rw [hcl, e3]; intro hc; simpa using h5 hc

theorem WInv.congr {s s' : WQ α} (h : WInv s) (h1 : s'.waiting = s.waiting)
    (h2 : s'.woken = s.woken) (h3 : s'.cancelledF = s.cancelledF) (h4 : s'.doomed = s.doomed)
    (h5 : s'.closed = s.closed) : WInv s' := by
  obtain ⟨a, b, c, d, e⟩ := h
  exact ⟨by rwa [h1], by rwa [h2], by rwa [h1, h2, h4], by rwa [h2, h3, h4], by rwa [h1, h5]⟩

theorem put__fields (s : WQ α) (x : α) :
    (s.put_ x).waiting = s.waiting ∧ (s.put_ x).woken = s.woken ∧
    (s.put_ x).cancelledF = s.cancelledF ∧ (s.put_ x).doomed = s.doomed ∧
    (s.put_ x).closed = s.closed ∧ (s.put_ x).backoff = s.backoff := by
  unfold WQ.put_; split
  · simp
  · dsimp only; split <;> simp

theorem WInv.put {s : WQ α} (x : α) (h : WInv s) : WInv (s.put x) := by
  obtain ⟨a, b, c, d, e, -⟩ := put__fields s x
  exact (h.congr a b c d e).wakeup

theorem WInv.getLoop {s : WQ α} (t : Nat) (h : WInv s)
    (ht : t ∉ s.waiting ∧ t ∉ s.woken ∧ t ∉ s.doomed) : WInv (s.getLoop t).1 := by
  obtain ⟨h1, h2, h3, h4, h5⟩ := h
  unfold WQ.getLoop WQ.get_
  split
  · split
    · exact ⟨h1, h2, h3, h4, h5⟩
    · refine ⟨?_, h2, ?_, h4, ?_⟩
      · grind
      · grind
      · intro hc; contradiction
  · split
    · exact ⟨h1, h2, h3, h4, h5⟩
    · split <;> exact ⟨h1, h2, h3, h4, h5⟩

theorem WInv.putAfter {s : WQ α} (now : Rat) (x : α) (d : Rat) (h : WInv s) :
    WInv (s.putAfter now x d).1 := by
  rcases putAfter_cases s now x d with ⟨-, e⟩ | ⟨-, -, e⟩ | ⟨-, -, e⟩ <;> rw [e]
  · exact h
  · exact h.congr rfl rfl rfl rfl rfl
  · exact (h.congr (s' := { s with timers := delTimer s.timers x }) rfl rfl rfl rfl rfl).put x

theorem WInv.step {s : WQ α} (o : Op α) (h : WInv s) : WInv (s.step o).1 := by
  cases o with
  | put x => exact h.put x
  | putAfter now x d => exact h.putAfter now x d
  | putBackoff now x =>
    exact (h.congr (s' := { s with backoff := (s.backoff.backoff x).1 }) rfl rfl rfl rfl rfl).putAfter
      now x _
  | resetBackoff x => exact h.congr rfl rfl rfl rfl rfl
  | fire x =>
    simp only [WQ.step]; split
    · exact h
    · exact (h.congr (s' := { s with timers := delTimer s.timers x }) rfl rfl rfl rfl rfl).put x
  | get t =>
    simp only [WQ.step]; split
    · exact h
    · rename_i hb
      simp [WQ.busy] at hb
      exact h.getLoop t ⟨hb.1, hb.2.1, hb.2.2.2⟩
  | resume t =>
    simp only [WQ.step]
    obtain ⟨h1, h2, h3, h4, h5⟩ := h
    split
    · refine ⟨h1, h2, ?_, ?_, h5⟩ <;> grind [mem_delS]
    · split
      · refine ⟨?_, h2, ?_, ?_, ?_⟩ <;> grind [mem_delS]
      · split
        · refine WInv.getLoop (s := { s with woken := s.woken.erase t }) t ⟨h1, ?_, ?_, ?_, h5⟩ ?_ <;>
            grind
        · exact ⟨h1, h2, h3, h4, h5⟩
  | cancel t =>
    obtain ⟨h1, h2, h3, h4, h5⟩ := h
    simp only [WQ.step]
    split
    · exact ⟨h1, h2, h3, h4, h5⟩
    · split
      · refine ⟨h1, h2, ?_, ?_, h5⟩ <;> grind [mem_addS]
      · split
        · refine ⟨h1, ?_, ?_, ?_, h5⟩ <;> grind [mem_addS]
        · exact ⟨h1, h2, h3, h4, h5⟩
  | taskDone x =>
    simp only [WQ.step, WQ.taskDone]; split
    · exact (h.congr (s' := { s with processing := delS x s.processing, queue := s.queue ++ [x] })
        rfl rfl rfl rfl rfl).wakeup
    · exact h.congr rfl rfl rfl rfl rfl
  | close =>
    obtain ⟨h1, h2, h3, h4, h5⟩ := h
    simp only [WQ.step, WQ.close, WQ.wakeupAll]
    refine ⟨by simp, ?_, by simp, ?_, by simp⟩
    · rw [List.nodup_append]
      refine ⟨h2, h1.filter _, ?_⟩
      intro a ha b hb; grind
    · intro t ht
      simp only [List.mem_append, List.mem_filter, decide_eq_true_eq] at ht
      rcases ht with ht | ⟨ht, hc⟩
      · exact h4 t ht
      · exact ⟨hc, (h3 t ht).2⟩

theorem winv_exec (b : Backoff α) (ops : List (Op α)) : WInv (exec b ops).1 := by
  induction ops using snoc_induction with
  | h0 => constructor <;> simp [exec, WQ.init]
  | h1 ops o ih => rw [exec_snoc]; exact ih.step o

/-- If a getter is blocked, there are at least as many woken getters as queued items. -/
def Awake (s : WQ α) : Prop := s.blocked ≠ [] → s.queue.length ≤ s.woken.length

theorem awake_wakeup_append {s : WQ α} (x : α) (h : Awake s) :
    Awake ({ s with queue := s.queue ++ [x] } : WQ α).wakeup := by
  rcases wakeup_cases ({ s with queue := s.queue ++ [x] } : WQ α) with
    ⟨e1, -, -⟩ | ⟨p, w, r, e0, e1, e2, e3, e4⟩
  · intro hb; exfalso; apply hb; unfold WQ.blocked; rw [e1]; rfl
  · intro _
    rw [(wakeup_fields _).1, e4]
    have : s.blocked ≠ [] := by
      intro hh
      simp only [WQ.blocked, List.filter_eq_nil_iff] at hh
      have := hh w (by rw [show s.waiting = _ from e0]; simp)
      simp at this; exact e2 this
    have := h this
    simp; omega

theorem awake_wakeup {s : WQ α} (h : Awake s) : Awake s.wakeup := by
  rcases wakeup_cases s with ⟨e1, -, -⟩ | ⟨p, w, r, e0, e1, e2, e3, e4⟩
  · intro hb; exfalso; apply hb; unfold WQ.blocked; rw [e1]; rfl
  · intro _
    rw [(wakeup_fields _).1, e4]
    have : s.blocked ≠ [] := by
      intro hh
      simp only [WQ.blocked, List.filter_eq_nil_iff] at hh
      have := hh w (by rw [e0]; simp)
      simp at this; exact e2 this
    have := h this
    simp; omega

theorem awake_put {s : WQ α} (x : α) (h : Awake s) : Awake (s.put x) := by
  unfold WQ.put WQ.put_
  split
  · exact awake_wakeup h
  · dsimp only; split
    · exact awake_wakeup (s := { s with dirty := addS x s.dirty }) h
    · exact awake_wakeup_append (s := { s with dirty := addS x s.dirty }) x h

/-- The outcomes of the loop of `get`. -/
theorem getLoop_cases (s : WQ α) (t : Nat) :
    (s.closed = true ∧ s.getLoop t = (s, .closed)) ∨
    (s.closed = false ∧ s.queue = [] ∧
      s.getLoop t = ({ s with waiting := s.waiting ++ [t] }, .blocked)) ∨
    (∃ x q, s.closed = false ∧ s.queue = x :: q ∧
      s.getLoop t = ({ s with queue := q, processing := addS x s.processing,
                              dirty := delS x s.dirty }, .item x)) := by
  unfold WQ.getLoop WQ.get_
  cases hc : s.closed <;> cases hq : s.queue <;> simp
  exact ⟨_, _, ⟨rfl, rfl⟩, ⟨rfl, rfl, rfl⟩, rfl⟩

theorem awake_getLoop {s : WQ α} (t : Nat) (h : Awake s) : Awake (s.getLoop t).1 := by
  rcases getLoop_cases s t with ⟨-, e⟩ | ⟨-, hq, e⟩ | ⟨x, q, -, hq, e⟩ <;> rw [e]
  · exact h
  · intro _; show s.queue.length ≤ _; simp [hq]
  · intro hb; have := h hb; rw [hq] at this; simp at this ⊢; omega

theorem awake_putAfter {s : WQ α} (now : Rat) (x : α) (d : Rat) (h : Awake s) :
    Awake (s.putAfter now x d).1 := by
  rcases putAfter_cases s now x d with ⟨-, e⟩ | ⟨-, -, e⟩ | ⟨-, -, e⟩ <;> rw [e]
  · exact h
  · exact h
  · exact awake_put (s := { s with timers := delTimer s.timers x }) x h

theorem awake_step {s : WQ α} (o : Op α) (h : Awake s) (hw : WInv s)
    (ho : ∀ t, o = .cancel t → t ∉ s.woken) : Awake (s.step o).1 := by
  cases o with
  | put x => exact awake_put x h
  | putAfter now x d => exact awake_putAfter now x d h
  | putBackoff now x =>
    exact awake_putAfter (s := { s with backoff := (s.backoff.backoff x).1 }) now x _ h
  | resetBackoff x => exact h
  | fire x =>
    simp only [WQ.step]; split
    · exact h
    · exact awake_put (s := { s with timers := delTimer s.timers x }) x h
  | get t =>
    simp only [WQ.step]; split
    · exact h
    · exact awake_getLoop t h
  | resume t =>
    simp only [WQ.step]
    split
    · exact h
    · split
      · intro hb
        apply h
        intro hh
        apply hb
        simp only [WQ.blocked, List.filter_eq_nil_iff] at hh ⊢
        intro a ha
        have hn := hw.nodupW
        have : a ∈ s.waiting ∧ a ≠ t := by grind
        have := hh a this.1
        simp_all
      · split
        · rename_i ht
          rcases getLoop_cases ({ s with woken := s.woken.erase t }) t with
            ⟨hc, e⟩ | ⟨-, hq, e⟩ | ⟨x, q, -, hq, e⟩ <;> rw [e]
          · intro hb; exfalso; apply hb
            have := hw.closed hc
            simp [WQ.blocked, this]
          · intro _; show s.queue.length ≤ _; rw [show s.queue = [] from hq]; simp
          · intro hb
            have := h hb
            have hq' : s.queue = x :: q := hq
            rw [hq'] at this
            have hl : (s.woken.erase t).length = s.woken.length - 1 := by
              simp [ht]
            show q.length ≤ (s.woken.erase t).length
            simp at this
            omega
        · exact h
  | cancel t =>
    simp only [WQ.step]
    split
    · exact h
    · split
      · intro hb
        apply h
        intro hh
        apply hb
        simp only [WQ.blocked, List.filter_eq_nil_iff] at hh ⊢
        intro a ha
        have := hh a ha
        simp_all
      · split
        · exact absurd (by assumption) (ho t rfl)
        · exact h
  | taskDone x =>
    simp only [WQ.step, WQ.taskDone]; split
    · exact awake_wakeup_append (s := { s with processing := delS x s.processing }) x h
    · exact h
  | close => intro hb; exfalso; apply hb; rfl

/-- No getter is cancelled between being woken and running. -/
def NoLateCancel (b : Backoff α) (ops : List (Op α)) : Prop :=
  ∀ before t after, ops = before ++ .cancel t :: after → t ∉ (exec b before).1.woken

theorem awake_exec (b : Backoff α) (ops : List (Op α)) (h : NoLateCancel b ops) :
    Awake (exec b ops).1 := by
  induction ops using snoc_induction with
  | h0 => intro _; simp [exec, WQ.init]
  | h1 ops o ih =>
    rw [exec_snoc]
    refine awake_step o (ih ?_) (winv_exec b ops) ?_
    · intro before t after hh
      exact h before t (after ++ [o]) (by simp [hh])
    · rintro t rfl
      exact h ops t [] (by simp)

/-! ### Backoff -/

/-- Failures and successes applied to a backoff (`true` = failure), oldest first. -/
def bApply (b : Backoff α) : List (Bool × α) → Backoff α
  | [] => b
  | (true, x) :: l => bApply (b.backoff x).1 l
  | (false, x) :: l => bApply (b.reset x) l

theorem bApply_snoc (b : Backoff α) (l : List (Bool × α)) (p : Bool × α) :
    bApply b (l ++ [p]) = if p.1 then ((bApply b l).backoff p.2).1 else (bApply b l).reset p.2 := by
  induction l generalizing b with
  | nil => obtain ⟨b', x⟩ := p; cases b' <;> rfl
  | cons q l ih => obtain ⟨b', x⟩ := q; cases b' <;> simp [bApply, ih]

theorem bApply_spec (b : Backoff α) (hb : ∀ x, b.failures x = 0) (l : List (Bool × α)) :
    (bApply b l).base = b.base ∧ (bApply b l).cap = b.cap ∧
    ∀ x, (bApply b l).failures x = failuresSince x l.reverse := by
  induction l using snoc_induction with
  | h0 => simp [bApply, failuresSince, hb]
  | h1 l p ih =>
    obtain ⟨i1, i2, i3⟩ := ih
    obtain ⟨p1, p2⟩ := p
    rw [bApply_snoc]
    simp only [List.reverse_append, List.reverse_cons, List.reverse_nil, List.nil_append,
      List.singleton_append]
    cases p1
    · simp only [Bool.false_eq_true, if_false, Backoff.reset, failuresSince]
      refine ⟨i1, i2, fun x => ?_⟩
      split <;> split <;> simp_all
    · simp only [if_true, Backoff.backoff, failuresSince]
      refine ⟨i1, i2, fun x => ?_⟩
      split <;> split <;> simp_all

end Verif.WorkQueue
