import Verif.WorkQueue.Lemmas2
/-
Property theorems for the work queue (C01-C07). `exec b ops` is a fresh queue after an arbitrary
list of operations, together with the log of what was observed (newest first). `held`, `pending`,
`readyOrder`, `outstanding` are defined on the log alone (`Spec.lean`).
-/
namespace Verif.WorkQueue
variable {α : Type} [DecidableEq α]

/-- C01. Whenever a getter receives `x`, nobody holds `x` at that moment: between two deliveries of
the same item there is always a `task_done` for it. -/
theorem mutual_exclusion (b : Backoff α) (ops : List (Op α)) (hd : Disciplined (exec b ops).2)
    (later : List (Ev α)) (t : Nat) (x : α) (earlier : List (Ev α))
    (h : (exec b ops).2 = later ++ .got t x :: earlier) : held x earlier = false :=
  log_induction b (fun e p => ∀ t x, e = .got t x → held x p = false)
    (by
      rintro ops o e hd hi he t x rfl
      obtain ⟨⟨r, hr⟩, -⟩ := got_source o hi he
      exact ((hi.ready x).1 (by simp [hr])).2)
    ops hd later _ earlier h t x rfl

/-- C01, stated on deliveries directly: two deliveries of one item are separated by a `task_done`. -/
theorem deliveries_separated (b : Backoff α) (ops : List (Op α)) (hd : Disciplined (exec b ops).2)
    (l3 l2 l1 : List (Ev α)) (t u : Nat) (x : α)
    (h : (exec b ops).2 = l3 ++ .got u x :: (l2 ++ .got t x :: l1)) : Ev.done x ∈ l2 := by
  have hm := mutual_exclusion b ops hd l3 u x _ h
  clear h
  induction l2 with
  | nil => simp [held] at hm
  | cons e l2 ih =>
    cases e <;> simp only [List.cons_append, held] at hm <;> try (simp; exact ih hm)
    · split at hm
      · simp at hm
      · simp; exact ih hm
    · split at hm
      · rename_i y hy; simp [hy]
      · simp; exact Or.inr (ih hm)

/-- C01. The discipline is needed: a `task_done` by a consumer that does not hold the item lets two
consumers hold it at once. -/
theorem mutual_exclusion_needs_discipline :
    ∃ (ops : List (Op Nat)) (t u x : Nat) (l1 : List (Ev Nat)),
      (exec { base := 0, cap := 0, failures := fun _ => 0 } ops).2 =
        .got u x :: .got t x :: l1 := by
  exact ⟨[.put 7, .taskDone 7, .get 1, .get 2], 1, 2, 7, [.done 7, .put 7], by decide +kernel⟩

/-- C02, C03. The next getter receives the item that has been ready longest; it blocks only if no
item is ready. -/
theorem get_returns_first_ready (b : Backoff α) (ops : List (Op α))
    (hd : Disciplined (exec b ops).2) (hc : Ev.closed ∉ (exec b ops).2) (t : Nat) :
    ((exec b ops).1.getLoop t).2 =
      match readyOrder (exec b ops).2 with
      | [] => .blocked
      | x :: _ => .item x := by
  have := ((inv_exec b ops hd).getLoop t).2
  rwa [if_neg hc] at this

/-- C02. A ready item is one that was put, not delivered since, and not held. -/
theorem ready_iff (b : Backoff α) (ops : List (Op α)) (hd : Disciplined (exec b ops).2) (x : α) :
    x ∈ readyOrder (exec b ops).2 ↔
      pending x (exec b ops).2 = true ∧ held x (exec b ops).2 = false :=
  (inv_exec b ops hd).ready x

theorem gets_of_inv (t : Nat) : ∀ (n : Nat) (s : WQ α) (log : List (Ev α)), Inv s log →
    Ev.closed ∉ log → gets s t n = (readyOrder log).take n
  | 0, _, _, _, _ => by simp [gets]
  | n + 1, s, log, h, hc => by
    have hg := h.getLoop t
    rw [if_neg hc] at hg
    unfold gets
    cases hr : readyOrder log with
    | nil =>
      rw [hr] at hg
      cases hl : s.getLoop t with
      | mk s' r => rw [hl] at hg; simp only at hg; simp [hg.2]
    | cons x q =>
      rw [hr] at hg
      cases hl : s.getLoop t with
      | mk s' r =>
        rw [hl] at hg; simp only at hg
        obtain ⟨h1, rfl⟩ := hg
        simp only [List.take_succ_cons, List.cons.injEq, true_and]
        rw [gets_of_inv t n s' _ h1 (by simpa [evOf] using hc)]
        simp [evOf, readyOrder, hr]

/-- C02. No put is lost: if `x` was put and not delivered since, then it is delivered by the following
gets - at once if nobody holds it, and after its holder marks it done otherwise. -/
theorem no_put_lost (b : Backoff α) (ops : List (Op α)) (hd : Disciplined (exec b ops).2)
    (hc : Ev.closed ∉ (exec b ops).2) (x : α) (hp : pending x (exec b ops).2 = true) (t : Nat) :
    (held x (exec b ops).2 = false → ∃ n, x ∈ gets (exec b ops).1 t n) ∧
    (held x (exec b ops).2 = true → ∃ n, x ∈ gets ((exec b ops).1.taskDone x) t n) := by
  have hi := inv_exec b ops hd
  constructor
  · intro hh
    refine ⟨(readyOrder (exec b ops).2).length, ?_⟩
    rw [gets_of_inv t _ _ _ hi hc, List.take_length]
    exact (hi.ready x).2 ⟨hp, hh⟩
  · intro hh
    have hi' := hi.taskDone x hh
    refine ⟨(readyOrder (.done x :: (exec b ops).2)).length, ?_⟩
    rw [gets_of_inv t _ _ _ hi' (by simpa using hc), List.take_length]
    exact (hi'.ready x).2 ⟨by simpa [pending] using hp, by simp [held]⟩

/-- C03. Successive gets deliver exactly the ready items, in the order in which they became ready,
each once. -/
theorem fifo_without_duplicates (b : Backoff α) (ops : List (Op α))
    (hd : Disciplined (exec b ops).2) (hc : Ev.closed ∉ (exec b ops).2) (t n : Nat) :
    gets (exec b ops).1 t n = (readyOrder (exec b ops).2).take n ∧
    (readyOrder (exec b ops).2).Nodup :=
  ⟨gets_of_inv t n _ _ (inv_exec b ops hd) hc, (inv_exec b ops hd).nodup⟩

/-- C03. A delivery of `x` is always preceded by a put of `x` after the previous delivery: any number
of puts before a delivery cause one delivery. -/
theorem delivered_only_if_put (b : Backoff α) (ops : List (Op α)) (hd : Disciplined (exec b ops).2)
    (later : List (Ev α)) (t : Nat) (x : α) (earlier : List (Ev α))
    (h : (exec b ops).2 = later ++ .got t x :: earlier) : pending x earlier = true :=
  log_induction b (fun e p => ∀ t x, e = .got t x → pending x p = true)
    (by
      rintro ops o e hd hi he t x rfl
      obtain ⟨⟨r, hr⟩, -⟩ := got_source o hi he
      exact ((hi.ready x).1 (by simp [hr])).1)
    ops hd later _ earlier h t x rfl

/-- C04. Nothing is delivered after the queue was closed. -/
theorem no_delivery_after_close (b : Backoff α) (ops : List (Op α))
    (hd : Disciplined (exec b ops).2)
    (later : List (Ev α)) (t : Nat) (x : α) (earlier : List (Ev α))
    (h : (exec b ops).2 = later ++ .got t x :: earlier) : Ev.closed ∉ earlier :=
  log_induction b (fun e p => ∀ t x, e = .got t x → Ev.closed ∉ p)
    (by
      rintro ops o e hd hi he t x rfl
      exact (got_source o hi he).2)
    ops hd later _ earlier h t x rfl

/-- C04. After the queue was closed (at any point of the history) no getter is blocked, every getter
that had been waiting and runs fails with `WorkQueueClosed`, and so does every new `get`, even with
items queued. -/
theorem closed_get_fails (b : Backoff α) (ops : List (Op α)) (hd : Disciplined (exec b ops).2)
    (hc : Ev.closed ∈ (exec b ops).2) :
    (exec b ops).1.waiting = [] ∧
    (∀ t ∈ (exec b ops).1.woken, ((exec b ops).1.step (.resume t)).2 = [.failed t]) ∧
    (∀ t, (exec b ops).1.busy t = false → ((exec b ops).1.step (.get t)).2 = [.failed t]) := by
  have hi := inv_exec b ops hd
  have hw := winv_exec b ops
  have hcl : (exec b ops).1.closed = true := hi.closed.2 hc
  refine ⟨hw.closed hcl, ?_, ?_⟩
  · intro t ht
    have h1 := hw.disjC t ht
    simp only [WQ.step, h1.1, h1.2, ht, if_true, if_false]
    rcases getLoop_cases ({ (exec b ops).1 with woken := (exec b ops).1.woken.erase t }) t with
      ⟨-, e⟩ | ⟨hn, -, -⟩ | ⟨_, _, hn, -, -⟩
    · rw [e]; rfl
    · simp [hcl] at hn
    · simp [hcl] at hn
  · intro t ht
    simp only [WQ.step, ht, Bool.false_eq_true, if_false]
    rcases getLoop_cases (exec b ops).1 t with ⟨-, e⟩ | ⟨hn, -, -⟩ | ⟨_, _, hn, -, -⟩
    · rw [e]; rfl
    · simp [hcl] at hn
    · simp [hcl] at hn

/-- `get` never fails with an internal error (`popleft` on an empty deque). -/
theorem get_never_crashes (b : Backoff α) (ops : List (Op α)) (t : Nat) :
    Ev.crashed t ∉ (exec b ops).2 := by
  have key : ∀ (s : WQ α) (u : Nat), evOf u (s.getLoop u).2 ≠ Ev.crashed t := by
    intro s u
    rcases getLoop_cases s u with ⟨-, e⟩ | ⟨-, -, e⟩ | ⟨_, _, -, -, e⟩ <;> rw [e] <;> simp [evOf]
  induction ops using snoc_induction with
  | h0 => simp [exec]
  | h1 ops o ih =>
    rw [exec_snoc]
    simp only [stepLog, List.mem_append, not_or]
    refine ⟨?_, ih⟩
    cases o <;> simp only [WQ.step] <;> (repeat' split) <;> simp <;> exact (key _ _).symm

/-- C05. For each item the armed timer is the earliest of the times requested for it and not yet
carried out, no timer is armed if there is none, and at most one timer is armed. -/
theorem earliest_deadline_armed (b : Backoff α) (ops : List (Op α)) :
    (∀ x, IsMin (outstanding x (exec b ops).2) (timerOf (exec b ops).1.timers x)) ∧
    ((exec b ops).1.timers.map (·.1)).Nodup :=
  ⟨(tinv_exec b ops).min, (tinv_exec b ops).nodup⟩

/-- C05. A further `put_after` never moves the time at which an item will be put to later: either it
is put at once, or the armed time does not increase and is at most the requested time. -/
theorem put_after_never_postpones (b : Backoff α) (ops : List (Op α)) (now : Rat) (x : α) (d : Rat) :
    let s := (exec b ops).1
    let r := s.putAfter now x d
    (r.2 = true ∧ timerOf r.1.timers x = none) ∨
    (∃ m, timerOf r.1.timers x = some m ∧ m ≤ now + d ∧ ∀ m', timerOf s.timers x = some m' → m ≤ m') := by
  intro s r
  rcases putAfter_cases s now x d with ⟨hs, e⟩ | ⟨hs, -, e⟩ | ⟨hs, -, e⟩
  · right
    have hr : r = (s, false) := e
    rw [hr]
    cases ht : timerOf s.timers x with
    | none => simp [ht, sooner] at hs
    | some m =>
      refine ⟨m, rfl, ?_, ?_⟩
      · rw [ht] at hs; simp only [sooner, decide_eq_false_iff_not] at hs; grind
      · intro m' hm'; simp at hm'; grind
  · right
    have hr : r = _ := e
    rw [hr]
    refine ⟨now + d, by simp [timerOf_setTimer], by grind, ?_⟩
    intro m' hm'
    rw [hm'] at hs
    simp only [sooner, decide_eq_true_eq] at hs; grind
  · left
    have hr : r = _ := e
    rw [hr]
    exact ⟨rfl, by rw [put_timers, timerOf_delTimer]; simp⟩

/-- C06. After any sequence of failures (`true`) and successes (`false`) of any items, the wait for
the next failure of `x` is `min (base * 2^n) cap` where `n` counts the failures of `x` since its last
success. This is over the rationals; for the floats of the program see `C06_floats_partial`. -/
theorem backoff_formula (base cap : Rat) (l : List (Bool × α)) (x : α) :
    ((bApply { base := base, cap := cap, failures := fun _ => 0 } l).backoff x).2 =
      min (base * 2 ^ (failuresSince x l.reverse)) cap := by
  obtain ⟨h1, h2, h3⟩ := bApply_spec (α := α) { base := base, cap := cap, failures := fun _ => 0 }
    (fun _ => rfl) l
  simp [Backoff.backoff, h1, h2, h3]

theorem two_pow_pos (n : Nat) : (0 : Rat) < 2 ^ n := by
  induction n with
  | zero => decide +kernel
  | succ n ih => rw [Rat.pow_succ]; grind

/-- C06. The wait never exceeds the cap, never decreases from one failure to the next, and doubles
until it reaches the cap. -/
theorem backoff_capped_monotone (base cap : Rat) (hb : 0 ≤ base) (n : Nat) :
    min (base * 2 ^ n) cap ≤ cap ∧
    min (base * 2 ^ n) cap ≤ min (base * 2 ^ (n + 1)) cap ∧
    (base * 2 ^ (n + 1) ≤ cap → min (base * 2 ^ (n + 1)) cap = 2 * min (base * 2 ^ n) cap) := by
  have h1 : base * (2:Rat) ^ (n + 1) = 2 * (base * 2 ^ n) := by rw [Rat.pow_succ]; grind
  have h2 : 0 ≤ base * (2:Rat) ^ n := Rat.mul_nonneg hb (Rat.le_of_lt (two_pow_pos n))
  rw [h1]
  grind

/-- C07 (partial: histories in which no getter is cancelled between its wake-up and its running).
If a getter is blocked then at least as many getters are woken and about to run as items are ready;
in particular no item waits while all getters sleep. -/
theorem no_lost_wakeup_partial (b : Backoff α) (ops : List (Op α)) (hn : NoLateCancel b ops)
    (hb : (exec b ops).1.blocked ≠ []) :
    (exec b ops).1.queue.length ≤ (exec b ops).1.woken.length :=
  awake_exec b ops hn hb

/-- C07 is false in general: a getter is cancelled after it was woken and before it runs; the other
getter sleeps although an item is ready, and nobody is going to run. -/
theorem no_lost_wakeup_violated :
    ∃ ops : List (Op Nat),
      let r := exec { base := 0, cap := 0, failures := fun _ => 0 } ops
      r.1.blocked = [2] ∧ readyOrder r.2 = [7] ∧ r.1.woken = [] ∧ r.1.doomed = [] ∧
        r.1.closed = false :=
  ⟨[.get 1, .get 2, .put 7, .cancel 1, .resume 1], by decide +kernel⟩

/-! ### The hypotheses are satisfiable on non-trivial histories -/

/-- Decidable form of `Disciplined`. -/
def disciplinedB : List (Ev α) → Bool
  | [] => true
  | .done x :: past => held x past && disciplinedB past
  | _ :: past => disciplinedB past

theorem disciplinedB_iff (log : List (Ev α)) : disciplinedB log = true → Disciplined log := by
  intro h later x earlier he
  subst he
  induction later with
  | nil => simp [disciplinedB] at h; exact h.1
  | cons e later ih =>
    apply ih
    cases e <;> simp [disciplinedB] at h <;> try exact h
    exact h.2

/-- An item put twice, delivered, put again while held, marked done and delivered again. -/
def demo : List (Op Nat) :=
  [.put 7, .put 8, .put 7, .get 1, .put 7, .get 2, .taskDone 7, .get 1, .putAfter 0 9 5,
   .putAfter 1 9 2, .putAfter 2 9 9, .fire 9]

def demoB : Backoff Nat := { base := 1, cap := 10, failures := fun _ => 0 }

example : Disciplined (exec demoB demo).2 := disciplinedB_iff _ (by decide +kernel)
example : (exec demoB demo).2 =
    [.due 9, .requested 9 11, .requested 9 3, .requested 9 5, .got 1 7, .done 7, .got 2 8, .put 7,
     .got 1 7, .put 7, .put 8, .put 7] := by decide +kernel
example : Ev.closed ∉ (exec demoB demo).2 ∧ pending 9 (exec demoB demo).2 = true ∧
    held 9 (exec demoB demo).2 = false ∧ held 7 (exec demoB demo).2 = true := by decide +kernel
/-- a put while held -/
example : pending 7 (exec demoB (demo.take 5)).2 = true ∧ held 7 (exec demoB (demo.take 5)).2 = true ∧
    disciplinedB (exec demoB (demo.take 5)).2 = true := by decide +kernel
/-- closed with an item queued and a getter woken -/
example : let r := exec demoB [.get 1, .get 2, .put 7, .put 8, .get 3, .put 9, .close]
    Ev.closed ∈ r.2 ∧ disciplinedB r.2 = true ∧ r.1.woken = [1, 2] ∧ r.1.queue = [8, 9] ∧
    r.1.busy 3 = false := by decide +kernel
/-- an armed timer that is the minimum of two requests -/
example : outstanding 9 (exec demoB (demo.take 11)).2 = [11, 3, 5] ∧
    timerOf (exec demoB (demo.take 11)).1.timers 9 = some 3 := by decide +kernel
/-- backoff waits 1, 2, 4, 8, 10 -/
example : ((bApply demoB [(true, 7), (true, 7), (true, 8), (true, 7)]).backoff 7).2 = 8 ∧
    ((bApply demoB [(true, 7), (true, 7), (true, 8), (false, 7), (true, 7)]).backoff 7).2 = 2 := by
  decide +kernel
/-- blocked getter with another one woken -/
example : let ops : List (Op Nat) := [.get 1, .get 2, .put 7]
    (exec demoB ops).1.blocked = [2] ∧ (exec demoB ops).1.woken = [1] ∧
    (exec demoB ops).1.queue = [7] ∧ NoLateCancel demoB ops := by
  refine ⟨by decide +kernel, by decide +kernel, by decide +kernel, ?_⟩
  intro before t after h
  have : Op.cancel t ∈ [Op.get 1, Op.get 2, Op.put 7] := by rw [h]; simp
  simp at this

end Verif.WorkQueue
