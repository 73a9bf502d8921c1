import Verif.WorkQueue.Float
import Verif.WorkQueue.Props

/-!
# C06 with floats, and C193: an object that keeps failing

After 1024 failures in succession the wait cannot be computed any more, and the task that tries to dies of it.
-/

namespace Verif.WorkQueue

variable {α : Type} [DecidableEq α]

set_option exponentiation.threshold 2000 in
theorem floatPow_eq (n : Nat) : floatPow n = if n < 1024 then some ((2 : Rat) ^ n) else none := by
  unfold floatPow
  have : (2 ^ n < (2 ^ 1024 : Nat)) ↔ n < 1024 := Nat.pow_lt_pow_iff_right (by decide)
  simp only [this]

theorem backoffF_state (b : Backoff α) (x : α) : (b.backoffF x).1 = (b.backoff x).1 := rfl

/-- **C06 (floats, partial).** After any failures and successes of any items, the wait for the next failure of an item
is `min (base * 2^n) cap`, where `n` counts its failures since its last success, exactly if there are fewer than 1024 of
them; after that there is none, but an `OverflowError`.

What is missing is a wait for each number of failures (`C06_overflow_violated`). -/
theorem C06_floats_partial (base cap : Rat) (l : List (Bool × α)) (x : α) :
    ((bApply { base := base, cap := cap, failures := fun _ => 0 } l).backoffF x).2 =
      if failuresSince x l.reverse < 1024 then some (min (base * 2 ^ (failuresSince x l.reverse)) cap) else none := by
  obtain ⟨h1, h2, h3⟩ := bApply_spec (α := α) { base := base, cap := cap, failures := fun _ => 0 }
    (fun _ => rfl) l
  simp only [Backoff.backoffF, h1, h2, h3, floatPow_eq]
  split <;> rfl

theorem failuresSince_replicate (x : α) (n : Nat) (l : List (Bool × α)) :
    failuresSince x (List.replicate n (true, x) ++ l) = n + failuresSince x l := by
  induction n with
  | zero => simp
  | succ n ih => simp [List.replicate_succ, failuresSince, ih]; omega

/-- **C06 (overflow, violated).** Not every failure is followed by a wait: the 1025th in succession raises. -/
theorem C06_overflow_violated : ¬ ∀ (base cap : Rat) (l : List (Bool × Nat)) (x : Nat),
    ∃ d, ((bApply { base := base, cap := cap, failures := fun _ => 0 } l).backoffF x).2 = some d := by
  intro h
  obtain ⟨d, hd⟩ := h (1 / 10) 300 (List.replicate 1024 (true, 7)) 7
  rw [C06_floats_partial] at hd
  have : failuresSince 7 (List.replicate 1024 (true, 7)).reverse = 1024 := by
    rw [List.reverse_replicate, ← List.append_nil (List.replicate 1024 (true, 7)), failuresSince_replicate]
    rfl
  rw [this] at hd
  simp at hd

/-- The attempts, newest first, that came after 1024 failures in succession of their item and failed too. -/
def hopeless : List (Bool × α) → Nat
  | [] => 0
  | (true, y) :: past => (if 1024 ≤ failuresSince y past then 1 else 0) + hopeless past
  | (false, _) :: past => hopeless past

/-- What holds throughout, with `n` tasks at the beginning. -/
structure Kept (n : Nat) (s : Pool α) (log : List (Bool × α)) : Prop where
  tasks : s.workers + hopeless log = n
  counts : ∀ x, s.backoff.failures x = failuresSince x log
  again : ∀ x, 0 < failuresSince x log → failuresSince x log ≤ 1024 → x ∈ s.ready ∨ x ∈ s.armed

theorem kept_turn {n : Nat} {s : Pool α} {log : List (Bool × α)} (h : Kept n s log) (x : α) (f : Bool)
    (hw : 0 < s.workers) : Kept n (s.turn x f) ((f, x) :: log) := by
  cases f with
  | false =>
    refine ⟨h.tasks, ?_, ?_⟩
    · intro y
      by_cases e : y = x
      · subst e; simp [Pool.turn, Backoff.reset, failuresSince]
      · have e' : ¬ x = y := fun h => e h.symm
        simp [Pool.turn, Backoff.reset, failuresSince, e, e', h.counts]
    · intro y h0 h1
      by_cases e : y = x
      · subst e; simp [failuresSince] at h0
      · have e' : ¬ x = y := fun h => e h.symm
        simp only [failuresSince, e', if_false] at h0 h1
        simp only [Pool.turn, mem_delS, Bool.false_eq_true, if_false]
        rcases h.again y h0 h1 with a | a
        · exact Or.inl ⟨a, e⟩
        · exact Or.inr a
  | true =>
    have hc : ∀ y, (if y = x then s.backoff.failures x + 1 else s.backoff.failures y) = failuresSince y ((true, x) :: log) := by
      intro y
      by_cases e : y = x
      · subst e; simp [failuresSince, h.counts]
      · have e' : ¬ x = y := fun h => e h.symm
        simp [failuresSince, e, e', h.counts]
    by_cases hx : failuresSince x log < 1024
    · have ht : s.turn x true = { s with
          backoff := { s.backoff with failures := fun y => if y = x then s.backoff.failures x + 1 else s.backoff.failures y },
          ready := delS x s.ready, armed := addS x s.armed } := by
        simp [Pool.turn, Backoff.backoffF, floatPow_eq, h.counts, hx]
      rw [ht]
      refine ⟨?_, hc, ?_⟩
      · have : ¬ 1024 ≤ failuresSince x log := by omega
        simp only [hopeless, this, if_false]
        have := h.tasks
        omega
      · intro y h0 h1
        simp only [mem_delS, mem_addS]
        by_cases e : y = x
        · exact Or.inr (Or.inl e)
        · have e' : ¬ x = y := fun h => e h.symm
          simp only [failuresSince, e', if_false] at h0 h1
          rcases h.again y h0 h1 with a | a
          · exact Or.inl ⟨a, e⟩
          · exact Or.inr (Or.inr a)
    · have ht : s.turn x true = { s with
          backoff := { s.backoff with failures := fun y => if y = x then s.backoff.failures x + 1 else s.backoff.failures y },
          ready := delS x s.ready, workers := s.workers - 1 } := by
        simp [Pool.turn, Backoff.backoffF, floatPow_eq, h.counts, hx]
      rw [ht]
      refine ⟨?_, hc, ?_⟩
      · have : 1024 ≤ failuresSince x log := by omega
        simp only [hopeless, this, if_true]
        have := h.tasks
        omega
      · intro y h0 h1
        simp only [mem_delS]
        by_cases e : y = x
        · subst e
          simp only [failuresSince, if_true] at h1
          omega
        · have e' : ¬ x = y := fun h => e h.symm
          simp only [failuresSince, e', if_false] at h0 h1
          rcases h.again y h0 h1 with a | a
          · exact Or.inl ⟨a, e⟩
          · exact Or.inr a

theorem kept_run (n : Nat) (h : List (Happening α)) : ∀ (s : Pool α) (log : List (Bool × α)), Kept n s log →
    Kept n (Pool.run (s, log) h).1 (Pool.run (s, log) h).2 := by
  induction h with
  | nil => intro s log hk; exact hk
  | cons a t ih =>
    intro s log hk
    cases a with
    | attempt x f =>
      by_cases hw : 0 < s.workers ∧ x ∈ s.ready
      · have : Pool.run (s, log) (.attempt x f :: t) = Pool.run (s.turn x f, (f, x) :: log) t := by
          simp [Pool.run, Pool.step, hw]
        rw [this]
        exact ih _ _ (kept_turn hk x f hw.1)
      · have : Pool.run (s, log) (.attempt x f :: t) = Pool.run (s, log) t := by
          simp only [Pool.run, Pool.step, hw, if_false]
        rw [this]
        exact ih _ _ hk
    | due x =>
      by_cases hx : x ∈ s.armed
      · have : Pool.run (s, log) (.due x :: t) = Pool.run ({ s with armed := delS x s.armed }.put x, log) t := by
          simp only [Pool.run, Pool.step, hx, if_true]
        rw [this]
        refine ih _ _ ⟨hk.tasks, hk.counts, ?_⟩
        intro y h0 h1
        simp only [Pool.put, mem_addS, mem_delS]
        by_cases e : y = x
        · exact Or.inl (Or.inl e)
        · rcases hk.again y h0 h1 with a | a
          · exact Or.inl (Or.inr a)
          · exact Or.inr ⟨a, e⟩
      · have : Pool.run (s, log) (.due x :: t) = Pool.run (s, log) t := by
          simp only [Pool.run, Pool.step, hx, if_false]
        rw [this]
        exact ih _ _ hk
    | event x =>
      have : Pool.run (s, log) (.event x :: t) = Pool.run (s.put x, log) t := by simp [Pool.run, Pool.step]
      rw [this]
      refine ih _ _ ⟨hk.tasks, hk.counts, ?_⟩
      intro y h0 h1
      simp only [Pool.put, mem_addS]
      rcases hk.again y h0 h1 with a | a
      · exact Or.inl (Or.inr a)
      · exact Or.inr a

theorem kept_start (n : Nat) (base cap : Rat) : Kept n (Pool.start n base cap : Pool α) [] :=
  ⟨rfl, fun _ => rfl, fun x h => by simp [failuresSince] at h⟩

/-- **C193 (how many are left).** Of the tasks that work on objects, one dies with each attempt that fails after 1024
failures in succession of the same object, and none otherwise: for every history. -/
theorem C193_exact (n : Nat) (base cap : Rat) (h : List (Happening α)) :
    let r := Pool.run (Pool.start n base cap, []) h
    r.1.workers + hopeless r.2 = n :=
  (kept_run n h _ _ (kept_start n base cap)).tasks

/-- **C193 (tried again, partial).** An object whose last attempt failed, and that failed at most 1024 times in
succession, is ready to be tried again or has a timer.

What is missing are objects that failed more often, and tasks that try them (`C193_stops_violated`). -/
theorem C193_again_partial (n : Nat) (base cap : Rat) (h : List (Happening α)) (x : α) :
    let r := Pool.run (Pool.start n base cap, []) h
    0 < failuresSince x r.2 → failuresSince x r.2 ≤ 1024 → x ∈ r.1.ready ∨ x ∈ r.1.armed :=
  (kept_run n h _ _ (kept_start n base cap)).again x

/-- `k` times: something happens to the object, it is tried, and that fails. -/
def vain (x : α) : Nat → List (Happening α)
  | 0 => []
  | k + 1 => .event x :: .attempt x true :: vain x k

theorem vain_run (x : α) (k : Nat) : ∀ (n : Nat) (s : Pool α) (log : List (Bool × α)), Kept n s log →
    k ≤ (1024 - failuresSince x log) + s.workers → (0 < k → 0 < s.workers) →
    (Pool.run (s, log) (vain x k)).2 = List.replicate k (true, x) ++ log ∧
      ∀ y, y ≠ x → y ∈ s.ready → y ∈ (Pool.run (s, log) (vain x k)).1.ready := by
  induction k with
  | zero => intro n s log _ _ _; exact ⟨rfl, fun y _ h => h⟩
  | succ k ih =>
    intro n s log hk hle hw
    have hw := hw (by omega)
    have hk1 : Kept n (s.put x) log := kept_run n [.event x] s log hk
    have hx : x ∈ (s.put x).ready := by simp [Pool.put, mem_addS]
    have hw1 : 0 < (s.put x).workers := hw
    have e : Pool.run (s, log) (vain x (k + 1)) = Pool.run ((s.put x).turn x true, (true, x) :: log) (vain x k) := by
      simp [vain, Pool.run, Pool.step, hx, hw1]
    have hk2 := kept_turn hk1 x true hw1
    have hws : ((s.put x).turn x true).workers = if failuresSince x log < 1024 then s.workers else s.workers - 1 := by
      have hc := hk.counts x
      by_cases h : failuresSince x log < 1024 <;> simp [Pool.turn, Backoff.backoffF, floatPow_eq, hc, h, Pool.put]
    have hf : failuresSince x ((true, x) :: log) = failuresSince x log + 1 := by simp [failuresSince]
    obtain ⟨a, b⟩ := ih n _ _ hk2 (by rw [hf, hws]; split <;> omega) (by rw [hws]; split <;> omega)
    rw [e]
    refine ⟨?_, ?_⟩
    · rw [a, List.replicate_succ', List.append_assoc]
      rfl
    · intro y hy hr
      refine b y hy ?_
      have hc := hk.counts x
      by_cases h : failuresSince x log < 1024 <;>
        simp [Pool.turn, Backoff.backoffF, floatPow_eq, hc, h, Pool.put, mem_delS, mem_addS, hy, hr]

theorem hopeless_replicate (x : α) (k : Nat) : hopeless (List.replicate (1024 + k) (true, x)) = k := by
  have small : ∀ m, m ≤ 1024 → hopeless (List.replicate m (true, x)) = 0 := by
    intro m
    induction m with
    | zero => intro _; rfl
    | succ m ih =>
      intro hm
      have := failuresSince_replicate x m []
      simp only [List.append_nil, failuresSince] at this
      simp only [List.replicate_succ, hopeless, this, ih (by omega)]
      rw [if_neg (by omega)]
  induction k with
  | zero => exact small 1024 (by omega)
  | succ k ih =>
    have := failuresSince_replicate x (1024 + k) []
    simp only [List.append_nil, failuresSince] at this
    rw [show 1024 + (k + 1) = (1024 + k) + 1 by omega, List.replicate_succ]
    simp only [hopeless, this, ih]
    rw [if_pos (by omega)]
    omega

/-- **C193 (stops, violated).** One object that keeps failing stops the work on all others: however many tasks there are,
a history exists after which none lives, another object is ready, and no further attempt is ever made on it. -/
theorem C193_stops_violated (n : Nat) (hn : 0 < n) (base cap : Rat) : ∃ h : List (Happening Nat),
    let r := Pool.run (Pool.start n base cap, []) h
    r.1.workers = 0 ∧ 1 ∈ r.1.ready ∧ (∀ a ∈ r.2, a.2 = 0) ∧
    ∀ f, Pool.run r [.attempt 1 f] = r := by
  refine ⟨.event 1 :: vain 0 (1024 + n), ?_⟩
  intro r
  have hk : Kept n ((Pool.start n base cap : Pool Nat).put 1) [] := kept_run n [.event 1] _ _ (kept_start n base cap)
  have hr : r = Pool.run ((Pool.start n base cap : Pool Nat).put 1, []) (vain 0 (1024 + n)) := by
    simp [r, Pool.run, Pool.step]
  obtain ⟨hl, hy⟩ := vain_run 0 (1024 + n) n _ _ hk (by simp [failuresSince, Pool.put, Pool.start]) (fun _ => hn)
  have ht := (kept_run n (vain 0 (1024 + n)) _ _ hk).tasks
  rw [← hr] at hl hy ht
  rw [List.append_nil] at hl
  have h0 : r.1.workers = 0 := by
    rw [hl, hopeless_replicate] at ht
    omega
  refine ⟨h0, hy 1 (by decide) (by simp [Pool.put, addS, Pool.start]), ?_, ?_⟩
  · intro a ha
    rw [hl] at ha
    rw [List.eq_of_mem_replicate ha]
  · intro f
    obtain ⟨s, log⟩ := r
    have h0 : s.workers = 0 := h0
    simp [Pool.run, Pool.step, h0]

/-- Not vacuous: a failure arms a timer, a success after it does not, and the tasks live. -/
example :
    let r := Pool.run (Pool.start 2 (1 / 10) 300, []) [.event 3, .attempt 3 true, .event 4, .attempt 4 true, .due 4,
      .attempt 4 false]
    r.1.workers = 2 ∧ r.1.armed = [3] ∧ r.1.ready = [] ∧ failuresSince 3 r.2 = 1 ∧ failuresSince 4 r.2 = 0 := by
  decide +kernel

end Verif.WorkQueue
