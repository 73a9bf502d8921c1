import Verif.Tasks.Lemmas
/-
C177: background work goes on whatever fails, and ends when it is told to.
-/
set_option linter.unusedSimpArgs false
set_option linter.unusedVariables false
namespace Verif.Tasks

/-! ### Specification -/

/-- Any call may fail and any condition may hold. -/
def anything : Call → Bool := fun _ => false

/-- Any call but the given one may fail, any condition but the given one may hold. -/
def exceptFor (c : Call) : Call → Bool := fun x => x == c

/-- What happened is that things ended well or failed: nothing was cancelled, no queue was closed. -/
def Undisturbed (st : St) : Prop := ∀ o ∈ st.evs, o.1 ≠ .fails .cancelled ∧ o.1 ≠ .fails .closed

/-- The task is still there: it waits for something. -/
def Alive (calm : Call → Bool) (p : Prog) (st : St) : Prop := ∃ k, (exec calm p st).res = .waits k

/-- The task has come to its end. -/
def Over (calm : Call → Bool) (p : Prog) (st : St) : Prop :=
  (exec calm p st).res = .fell ∨ (exec calm p st).res = .returned ∨ ∃ e, (exec calm p st).res = .raised e

/-- The same task after it was cancelled; `d` is what it then meets. -/
def cancelled (st : St) (d : List Bool) : St := ⟨st.data, st.evs ++ [(.fails .cancelled, d)]⟩

/-- The same task after what it waits for said that the queue is closed. -/
def closedQueue (st : St) (d : List Bool) : St := ⟨st.data, st.evs ++ [(.fails .closed, d)]⟩

/-- Every occurrence of an `a` that ended as `out` is followed at once by what `next` describes. -/
def Followed (a : Call) (out : Out → Prop) (next : Trace → Prop) (tr : Trace) : Prop :=
  ∀ pre o post, tr = pre ++ (a, o) :: post → out o → next post

/-- How often a call was made, however it ended. -/
def times (c : Call) (tr : Trace) : Nat := (tr.filter (fun x => x.1 == c)).length

/-- How often a call ended well. -/
def timesOk (c : Call) (tr : Trace) : Nat := (tr.filter (fun x => x.1 == c && x.2 == .ok)).length

/-! ### Tasks go on -/

/-- The tasks of the gateway, of the controller and of schedulers that nothing ends but being told to. -/
def steady : List Prog :=
  [checkTimeoutsLoop, checkClustersLoop, checkWorkersLoop, cleanupDbLoop, reconcilerLoop, kubeReconcilerLoop, syncClustersLoop,
    cleanupExpiredLoop, monitorLoop, heartbeatLoop, adaptLoop]

/-- Only errors. -/
def onlyErrors : Exc → Bool
  | .error => true
  | _ => false

theorem undisturbed_al {st : St} (h : Undisturbed st) : Al onlyErrors st := by
  intro e d hm
  have := h _ hm
  cases e
  · rfl
  · exact absurd rfl this.2
  · exact absurd rfl this.1

/-- Nothing but waiting is possible. -/
def forever? (calm : Call → Bool) (al : Exc → Bool) (p : Prog) : Bool :=
  !can calm al p .fell && !can calm al p .returned && !can calm al p .broke && !can calm al p .continued &&
    !can calm al p .spins && !can calm al p (.raised .error) && !can calm al p (.raised .closed) &&
    !can calm al p (.raised .cancelled)

theorem alive_of {calm : Call → Bool} {al : Exc → Bool} {p : Prog} (h : forever? calm al p = true) {st : St} (hal : Al al st) :
    Alive calm p st := by
  rcases (exec_sound calm al p st hal).2 with ⟨k, hk, _⟩ | ⟨hw, hc, _⟩
  · exact ⟨k, hk⟩
  · exfalso
    simp only [forever?, Bool.and_eq_true, Bool.not_eq_true'] at h
    obtain ⟨⟨⟨⟨⟨⟨⟨h1, h2⟩, h3⟩, h4⟩, h5⟩, h6⟩, h7⟩, h8⟩ := h
    cases hr : (exec calm p st).res with
    | waits k => exact hw k hr
    | fell => rw [hr, h1] at hc; cases hc
    | returned => rw [hr, h2] at hc; cases hc
    | broke => rw [hr, h3] at hc; cases hc
    | continued => rw [hr, h4] at hc; cases hc
    | spins => rw [hr, h5] at hc; cases hc
    | raised e =>
      rw [hr] at hc
      cases e
      · rw [h6] at hc; cases hc
      · rw [h7] at hc; cases hc
      · rw [h8] at hc; cases hc

/-- C177: none of these tasks ends, and none of them runs without ever waiting, whatever fails and however often. For the three
tasks that take items from a queue this takes `put_backoff` not to fail; see `C177_backoff_violated`. -/
theorem C177_goes_on (p : Prog) (hp : p ∈ steady) (st : St) (h : Undisturbed st) : Alive anything p st := by
  have key : ∀ p ∈ steady, forever? anything onlyErrors p = true := by decide +kernel
  exact alive_of (key p hp) (undisturbed_al h)

example : Undisturbed ⟨[], [(.ok, []), (.fails .error, []), (.ok, []), (.fails .error, [])]⟩ := by simp [Undisturbed]

example : (exec anything checkTimeoutsLoop ⟨[], [(.ok, []), (.fails .error, []), (.ok, []), (.fails .error, [])]⟩).tr =
    [(.sleep, .ok), (.checkTimeouts, .fails .error), (.sleep, .ok), (.checkTimeouts, .fails .error)] := by decide +kernel

/-- The tasks that take items from a queue, with waits that may not be computable. -/
def takers : List Prog := [reconcilerLoopF, kubeReconcilerLoopF, syncClustersLoopF]

/-- C177: so do the tasks that take items from a queue, as long as the wait after a failure can be computed. -/
theorem C177_backoff_partial (p : Prog) (hp : p ∈ takers) (st : St) (h : Undisturbed st) : Alive (exceptFor .putBackoff) p st := by
  have key : ∀ p ∈ takers, forever? (exceptFor .putBackoff) onlyErrors p = true := by decide +kernel
  exact alive_of (key p hp) (undisturbed_al h)

/-- C177 is false of each of them if it cannot, which is so after 1024 failures of one item in succession: the task ends, and
the item is marked done but not put again. -/
theorem C177_backoff_violated : ∀ p ∈ takers, ∃ st, Undisturbed st ∧ (exec anything p st).res = .raised .error ∧
    (exec anything p st).tr.getLast? = some (.taskDone, .ok) ∧ timesOk .putBackoff (exec anything p st).tr = 0 := by
  intro p hp
  refine ⟨⟨[], [(.ok, []), (.fails .error, [false])]⟩, by simp [Undisturbed], ?_⟩
  revert p
  decide +kernel

/-- C177: so does the watch of the objects of Kubernetes, as long as the answers with lists of objects can be taken in. -/
theorem C177_informer_partial (st : St) (h : Undisturbed st) : Alive (exceptFor .takeInitial) informerRun st :=
  alive_of (al := onlyErrors) (by decide +kernel) (undisturbed_al h)

/-- C177: an answer that cannot be taken in ends it: nothing is watched any more. -/
theorem C177_informer_violated : ∃ st, Undisturbed st ∧ (exec anything informerRun st).res = .raised .error := by
  refine ⟨⟨[], [(.ok, [false])]⟩, by simp [Undisturbed], by decide +kernel⟩

/-- C177: the task that stops idle clusters goes on as long as requests to stop do not fail. -/
theorem C177_idle_partial (st : St) (h : Undisturbed st) : Alive (exceptFor .idle) checkIdleLoop st :=
  alive_of (al := onlyErrors) (by decide +kernel) (undisturbed_al h)

/-- C177: one request to stop that fails ends it: an idle cluster then is not stopped. -/
theorem C177_idle_violated : ∃ st, Undisturbed st ∧ (exec anything checkIdleLoop st).res = .raised .error ∧
    (exec anything checkIdleLoop st).tr = [(.sleep, .ok), (.shutdown, .fails .error)] := by
  refine ⟨⟨[], [(.ok, [false, true]), (.fails .error, [])]⟩, by simp [Undisturbed], by decide +kernel, by decide +kernel⟩

/-! ### Tasks end when they are cancelled -/

/-- The tasks that end as soon as they are cancelled. -/
def obedient : List Prog :=
  [checkTimeoutsLoop, checkClustersLoop, checkWorkersLoop, cleanupDbLoop, reconcilerLoop, kubeReconcilerLoop, syncClustersLoop,
    cleanupExpiredLoop, informerRun, monitorLoop, checkIdleLoop]

/-- All ways to end are ends of the task. -/
def ends? (h : Res → Bool) : Bool := !h .broke && !h .continued

theorem over_of {loc calm : Call → Bool} {p : Prog} (hn : neat loc calm p = true) (he : ends? (hit loc calm p) = true) {st : St}
    {k : Call} (hw : (exec calm p st).res = .waits k) (hk : loc k = true) (d : List Bool) : Over calm p (cancelled st d) := by
  obtain ⟨h1, h2, _⟩ := exec_stops loc calm p hn st k d hw hk
  simp only [ends?, Bool.and_eq_true, Bool.not_eq_true'] at he
  show (exec calm p (st.more [(.fails .cancelled, d)])).res = _ ∨ (exec calm p (st.more [(.fails .cancelled, d)])).res = _ ∨
    ∃ e, (exec calm p (st.more [(.fails .cancelled, d)])).res = _
  cases hr : (exec calm p (st.more [(.fails .cancelled, d)])).res with
  | waits k => exact absurd hr (h1.1 k)
  | spins => exact absurd hr h1.2
  | fell => exact .inl rfl
  | returned => exact .inr (.inl rfl)
  | raised e => exact .inr (.inr ⟨e, rfl⟩)
  | broke => rw [hr, he.1] at h2; cases h2
  | continued => rw [hr, he.2] at h2; cases h2

/-- C177: each of these tasks ends when it is cancelled, wherever it waits and whatever happened before. -/
theorem C177_stops (p : Prog) (hp : p ∈ obedient) (st : St) (h : Alive anything p st) (d : List Bool) :
    Over anything p (cancelled st d) := by
  have key : ∀ p ∈ obedient, neat (fun _ => true) anything p = true ∧ ends? (hit (fun _ => true) anything p) = true := by
    decide +kernel
  obtain ⟨k, hk⟩ := h
  exact over_of (key p hp).1 (key p hp).2 hk rfl d

/-- C177: heartbeats end when they are cancelled, unless an interruption of the pause between them is under way. -/
theorem C177_heartbeat_partial (st : St) (d : List Bool) :
    (∀ k, (exec anything heartbeatLoop st).res = .waits k → k ≠ .wait → Over anything heartbeatLoop (cancelled st d)) ∧
    (Alive (exceptFor .triggered) heartbeatLoop st → Over (exceptFor .triggered) heartbeatLoop (cancelled st d)) := by
  refine ⟨fun k hk hne => ?_, fun ⟨k, hk⟩ => ?_⟩
  · exact over_of (loc := fun x => x != .wait) (by decide +kernel) (by decide +kernel) hk (by simpa using hne) d
  · exact over_of (loc := fun _ => true) (by decide +kernel) (by decide +kernel) hk rfl d

/-- C177: cancelled while such an interruption is under way they go on. -/
theorem C177_heartbeat_violated : ∃ st d, Alive anything heartbeatLoop st ∧ Alive anything heartbeatLoop (cancelled st d) :=
  ⟨⟨[], []⟩, [true], ⟨.wait, by decide +kernel⟩, ⟨.heartbeat, by decide +kernel⟩⟩

/-- C177: adaptive scaling ends when it is cancelled, unless it is just asking for another number of workers. -/
theorem C177_adapt_partial (st : St) (d : List Bool) (k : Call) (hk : (exec anything adaptLoop st).res = .waits k)
    (hne : k ≠ .scale) : Over anything adaptLoop (cancelled st d) :=
  over_of (loc := fun x => x != .scale) (by decide +kernel) (by decide +kernel) hk (by simpa using hne) d

/-- C177: cancelled while it is asking for another number of workers it goes on; whoever waits for its end waits on. -/
theorem C177_adapt_violated : ∃ st d, (exec anything adaptLoop st).res = .waits .scale ∧
    Alive anything adaptLoop (cancelled st d) :=
  ⟨⟨[], []⟩, [], by decide +kernel, ⟨.sleep, by decide +kernel⟩⟩

/-- C177: when a pool of such tasks is closed, none of them is left. -/
theorem C177_close (pool : List Task) (hp : ∀ t ∈ pool, t.prog ∈ obedient)
    (hs : ∀ t ∈ pool, Alive anything t.prog t.st ∨ Over anything t.prog t.st) (d : Task → List Bool) :
    ∀ t ∈ close anything pool d, Over anything t.prog t.st := by
  intro t ht
  simp only [close, List.mem_map] at ht
  obtain ⟨u, hu, rfl⟩ := ht
  rcases hs u hu with ⟨k, hk⟩ | ho
  · have e : u.tell anything (.fails .cancelled, d u) = ⟨u.prog, cancelled u.st (d u)⟩ := by
      simp only [Task.tell, Task.now, hk]; rfl
    rw [e]
    exact C177_stops u.prog (hp u hu) u.st ⟨k, hk⟩ (d u)
  · have e : u.tell anything (.fails .cancelled, d u) = u := by
      simp only [Task.tell, Task.now]
      rcases ho with h | h | ⟨x, h⟩ <;> rw [h]
    rw [e]
    exact ho

example : (close anything [⟨checkTimeoutsLoop, ⟨[], [(.ok, [])]⟩⟩, ⟨reconcilerLoop, ⟨[], []⟩⟩] (fun _ => [])).map (Task.now anything) =
    [.raised .cancelled, .raised .cancelled] := by decide +kernel

/-! ### Queues -/

/-- One turn of a task that takes items from a queue. -/
def turn (work : Call) (after : Prog) : Prog :=
  block [attempt (.take .get) none (some .ret) none .skip .skip,
    attempt (.await work) none none (some (.act .putBackoff)) after (.act .taskDone)]

/-- The tasks that take items from queues, with the work they do. -/
def workers : List (Prog × Call) :=
  [(reconcilerLoop, .reconcile), (kubeReconcilerLoop, .reconcile), (syncClustersLoop, .sync)]

/-- What a turn does and where it stops. -/
def turns (work : Call) : List (Res × Trace) :=
  [(.waits .get, []), (.returned, [(.get, .fails .closed)]), (.raised .cancelled, [(.get, .fails .cancelled)]), (.waits work, [(.get, .ok)]),
    (.fell, [(.get, .ok), (work, .ok), (.resetBackoff, .ok), (.taskDone, .ok)]),
    (.fell, [(.get, .ok), (work, .ok), (.putBackoff, .ok), (.taskDone, .ok)]),
    (.fell, [(.get, .ok), (work, .fails .error), (.putBackoff, .ok), (.taskDone, .ok)]),
    (.fell, [(.get, .ok), (work, .fails .closed), (.putBackoff, .ok), (.taskDone, .ok)]),
    (.raised .cancelled, [(.get, .ok), (work, .fails .cancelled), (.taskDone, .ok)])]

theorem turn_cases (work : Call) (after : Prog) (h : after = .act .resetBackoff ∨ after = .ite .requeued (.act .putBackoff) (.act .resetBackoff))
    (st : St) : ((exec anything (turn work after) st).res, (exec anything (turn work after) st).tr) ∈ turns work := by
  obtain ⟨d, evs⟩ := st
  have rest : ∀ d evs, ∀ o : Out × List Bool, o.1 ≠ .fails .cancelled → o.1 ≠ .fails .closed →
      ((exec anything (turn work after) ⟨d, o :: evs⟩).res, (exec anything (turn work after) ⟨d, o :: evs⟩).tr) ∈ turns work := by
    intro d evs o ho ho2
    obtain ⟨o, d1⟩ := o
    have hp : doTake .get ⟨d, (o, d1) :: evs⟩ = ⟨.fell, ⟨d1, evs⟩, [(.get, .ok)]⟩ := by
      cases o with
      | ok => rfl
      | fails e => cases e <;> first | rfl | exact absurd rfl ho | exact absurd rfl ho2
    match evs, hp with
    | [], hp => simp [turn, block, attempt, exec, hp, doAwait, doTry, doFinally, turns, pick, R.after]
    | (.fails .error, d') :: evs, hp => simp [turn, block, attempt, exec, hp, doAwait, doTry, doFinally, turns, pick, R.after]
    | (.fails .closed, d') :: evs, hp => simp [turn, block, attempt, exec, hp, doAwait, doTry, doFinally, turns, pick, R.after]
    | (.fails .cancelled, d') :: evs, hp => simp [turn, block, attempt, exec, hp, doAwait, doTry, doFinally, turns, pick, R.after]
    | (.ok, d') :: evs, hp =>
      rcases h with rfl | rfl
      · simp [turn, block, attempt, exec, hp, doAwait, doTry, doFinally, turns, pick, R.after]
      · match d', hp with
        | [], hp => simp [turn, block, attempt, exec, hp, doAwait, doTry, doFinally, turns, pick, R.after, anything]
        | true :: d', hp => simp [turn, block, attempt, exec, hp, doAwait, doTry, doFinally, turns, pick, R.after, anything]
        | false :: d', hp => simp [turn, block, attempt, exec, hp, doAwait, doTry, doFinally, turns, pick, R.after, anything]
  match evs with
  | [] => simp [turn, block, attempt, exec, doTake, doTry, doFinally, turns]
  | (.fails .closed, d) :: evs => simp [turn, block, attempt, exec, doTake, doTry, doFinally, turns, pick, R.after]
  | (.fails .cancelled, d) :: evs => simp [turn, block, attempt, exec, doTake, doTry, doFinally, turns, pick, R.after]
  | (.ok, d1) :: evs => exact rest d evs _ (by simp) (by simp)
  | (.fails .error, d1) :: evs => exact rest d evs _ (by simp) (by simp)

/-- What a loop did is what its turns did, one after the other. -/
theorem loop_turns {f : St → R} {T : List (Res × Trace)} (hf : ∀ st, ((f st).res, (f st).tr) ∈ T) (n : Nat) :
    ∀ st, ∃ ts : List (Res × Trace), ∃ last, (∀ t ∈ ts, t ∈ T ∧ (t.1 = .fell ∨ t.1 = .continued)) ∧
      (doLoop f n st).tr = (ts.map (·.2)).flatten ++ last ∧
      (((doLoop f n st).res, last) ∈ T ∨ (doLoop f n st).res = .spins ∨ ((doLoop f n st).res = .fell ∧ (.broke, last) ∈ T)) := by
  induction n with
  | zero => intro st; exact ⟨[], [], by simp, rfl, .inr (.inl rfl)⟩
  | succ n ih =>
    intro st
    have h0 := hf st
    by_cases hr : (f st).res = .fell ∨ (f st).res = .continued
    · by_cases hl : (f st).st.evs.length < st.evs.length
      · have e1 : doLoop f (n + 1) st = (doLoop f n (f st).st).after (f st).tr := by
          rcases hr with hr | hr <;> (conv => lhs; unfold doLoop) <;> rw [hr] <;> simp only [hl, if_true]
        obtain ⟨ts, last, h1, h2, h3⟩ := ih (f st).st
        refine ⟨((f st).res, (f st).tr) :: ts, last, ?_, ?_, ?_⟩
        · intro t ht
          rcases List.mem_cons.1 ht with rfl | ht
          · exact ⟨h0, hr⟩
          · exact h1 t ht
        · rw [e1]
          simp [R.after, h2]
        · rw [e1]
          exact h3
      · have e1 : doLoop f (n + 1) st = ⟨.spins, (f st).st, (f st).tr⟩ := by
          rcases hr with hr | hr <;> (conv => lhs; unfold doLoop) <;> rw [hr] <;> simp only [hl, if_false]
        exact ⟨[], (f st).tr, by simp, by rw [e1]; rfl, .inr (.inl (by rw [e1]))⟩
    · cases hq : (f st).res with
      | fell => exact absurd (.inl hq) hr
      | continued => exact absurd (.inr hq) hr
      | broke =>
        have e1 : doLoop f (n + 1) st = { f st with res := .fell } := by (conv => lhs; unfold doLoop); rw [hq]
        rw [hq] at h0
        exact ⟨[], (f st).tr, by simp, by rw [e1]; rfl, .inr (.inr ⟨by rw [e1], h0⟩)⟩
      | _ =>
        have e1 : doLoop f (n + 1) st = f st := by (conv => lhs; unfold doLoop); rw [hq]
        exact ⟨[], (f st).tr, by simp, by rw [e1]; rfl, .inl (by rw [e1]; exact h0)⟩

theorem worker_turns (p : Prog) (work : Call) (hp : (p, work) ∈ workers) (st : St) :
    ∃ ts : List (Res × Trace), ∃ last, (∀ t ∈ ts, t ∈ turns work ∧ t.1 = .fell) ∧
      (exec anything p st).tr = (ts.map (·.2)).flatten ++ last ∧
      (((exec anything p st).res, last) ∈ turns work ∧ (exec anything p st).res ≠ .fell) := by
  have h0 : ∃ after, p = .forever (turn work after) ∧
      (after = .act .resetBackoff ∨ after = .ite .requeued (.act .putBackoff) (.act .resetBackoff)) := by
    simp only [workers, List.mem_cons, Prod.mk.injEq, List.not_mem_nil, or_false] at hp
    rcases hp with ⟨rfl, rfl⟩ | ⟨rfl, rfl⟩ | ⟨rfl, rfl⟩
    · exact ⟨_, rfl, .inl rfl⟩
    · exact ⟨_, rfl, .inr rfl⟩
    · exact ⟨_, rfl, .inl rfl⟩
  obtain ⟨after, rfl, ha⟩ := h0
  obtain ⟨ts, last, h1, h2, h3⟩ := loop_turns (turn_cases work after ha) (st.evs.length + 1) st
  have hc := (exec_sound anything (fun _ => true) (.forever (turn work after)) st (all_al st)).2
  have hne : (exec anything (.forever (turn work after)) st).res ≠ .fell ∧
      (exec anything (.forever (turn work after)) st).res ≠ .spins := by
    have hcan : can anything (fun _ => true) (.forever (turn work after)) .fell = false ∧
        can anything (fun _ => true) (.forever (turn work after)) .spins = false := by
      rcases ha with rfl | rfl
      · exact ⟨by simp [can, turn, block, attempt], by simp [can, eats, turn, block, attempt]⟩
      · exact ⟨by simp [can, turn, block, attempt], by simp [can, eats, turn, block, attempt]⟩
    rcases hc with ⟨k, hk, _⟩ | ⟨_, hc, _⟩
    · rw [hk]; exact ⟨by simp, by simp⟩
    · constructor
      · intro hx; rw [hx, hcan.1] at hc; cases hc
      · intro hx; rw [hx, hcan.2] at hc; cases hc
  refine ⟨ts, last, fun t ht => ⟨(h1 t ht).1, ?_⟩, h2, ?_, hne.1⟩
  · obtain ⟨h4, h5⟩ := h1 t ht
    rcases h5 with h5 | h5
    · exact h5
    · exfalso
      revert h5
      simp only [turns, List.mem_cons, List.not_mem_nil, or_false] at h4
      rcases h4 with rfl | rfl | rfl | rfl | rfl | rfl | rfl | rfl | rfl <;> simp
  · rcases h3 with h3 | h3 | h3
    · exact h3
    · exact absurd h3 hne.2
    · exact absurd h3.1 hne.1

theorem times_append (c : Call) (a b : Trace) : times c (a ++ b) = times c a + times c b := by
  simp [times]

theorem timesOk_append (c : Call) (a b : Trace) : timesOk c (a ++ b) = timesOk c a + timesOk c b := by
  simp [timesOk]

/-- C177: a task gives back each item that it took from the queue, whether the work failed, succeeded or was cancelled: at
any time at most the one it is at work on is out. -/
theorem C177_given_back (p : Prog) (work : Call) (hp : (p, work) ∈ workers) (st : St) :
    timesOk .get (exec anything p st).tr =
      times .taskDone (exec anything p st).tr + (if (exec anything p st).res = .waits work then 1 else 0) := by
  obtain ⟨ts, last, h1, h2, h3, h4⟩ := worker_turns p work hp st
  have hw : work = .reconcile ∨ work = .sync := by
    simp only [workers, List.mem_cons, Prod.mk.injEq, List.not_mem_nil, or_false] at hp
    rcases hp with ⟨_, rfl⟩ | ⟨_, rfl⟩ | ⟨_, rfl⟩ <;> simp
  have hts : timesOk .get ((ts.map (·.2)).flatten) = times .taskDone ((ts.map (·.2)).flatten) := by
    clear h2
    induction ts with
    | nil => rfl
    | cons t ts ih =>
      simp only [List.map_cons, List.flatten_cons, timesOk_append, times_append]
      rw [ih (fun u hu => h1 u (List.mem_cons_of_mem _ hu))]
      obtain ⟨h5, h6⟩ := h1 t List.mem_cons_self
      have : timesOk .get t.2 = times .taskDone t.2 := by
        simp only [turns, List.mem_cons, List.not_mem_nil, or_false] at h5
        rcases hw with rfl | rfl <;>
        rcases h5 with rfl | rfl | rfl | rfl | rfl | rfl | rfl | rfl | rfl <;>
          first | rfl | (simp at h6; done)
      rw [this]
  rw [h2, timesOk_append, times_append, hts]
  have hlast : timesOk .get last = times .taskDone last + (if (exec anything p st).res = .waits work then 1 else 0) := by
    revert h3 h4
    generalize (exec anything p st).res = r
    intro h3 h4
    simp only [turns, List.mem_cons, Prod.mk.injEq, List.not_mem_nil, or_false] at h3
    rcases hw with rfl | rfl <;>
    rcases h3 with ⟨rfl, rfl⟩ | ⟨rfl, rfl⟩ | ⟨rfl, rfl⟩ | ⟨rfl, rfl⟩ | ⟨rfl, rfl⟩ | ⟨rfl, rfl⟩ | ⟨rfl, rfl⟩ | ⟨rfl, rfl⟩ | ⟨rfl, rfl⟩ <;>
      first | rfl | exact absurd rfl h4
  omega

/-- Being followed, for what was done one after the other. -/
theorem followed_append {a : Call} {out : Out → Prop} {next : Trace → Prop} {x y : Trace}
    (hx : ∀ z, Followed a out (fun post => next (post ++ z)) x) (hy : Followed a out next y) : Followed a out next (x ++ y) := by
  intro pre o post he ho
  rw [List.append_eq_append_iff] at he
  rcases he with ⟨u, h1, h2⟩ | ⟨u, h1, h2⟩
  · exact hy u o post h2 ho
  · cases u with
    | nil =>
      exact hy [] o post h2.symm ho
    | cons w u =>
      simp only [List.cons_append, List.cons.injEq] at h2
      obtain ⟨rfl, rfl⟩ := h2
      exact hx y pre o u h1 ho

theorem followed_flatten {a : Call} {out : Out → Prop} {next : Trace → Prop} (ts : List Trace) (last : Trace)
    (h : ∀ t ∈ ts, ∀ z, Followed a out (fun post => next (post ++ z)) t) (hl : Followed a out next last) :
    Followed a out next (ts.flatten ++ last) := by
  induction ts with
  | nil => exact hl
  | cons t ts ih =>
    rw [List.flatten_cons, List.append_assoc]
    exact followed_append (h t List.mem_cons_self) (ih (fun u hu => h u (List.mem_cons_of_mem _ hu)))

/-- Being followed, decided for what is known. -/
theorem followed_list {a : Call} {out : Out → Prop} {next : Trace → Prop} {l : Trace}
    (h : ∀ n, n < l.length → ∀ o, l[n]? = some (a, o) → out o → next (l.drop (n + 1))) : Followed a out next l := by
  intro pre o post he ho
  have h1 := h pre.length (by rw [he]; simp) o (by rw [he]; simp) ho
  rw [he] at h1
  have e : (pre ++ (a, o) :: post).drop (pre.length + 1) = post := by
    rw [List.drop_append]
    simp
  rw [e] at h1
  exact h1

/-- C177: an item at which the work failed is put back in the queue, to be tried again later, before it is given back;
with the same simplification as in `C177_goes_on`. -/
theorem C177_retried (p : Prog) (work : Call) (hp : (p, work) ∈ workers) (st : St) :
    Followed work (fun o => o = .fails .error) (fun post => [(.putBackoff, .ok), (.taskDone, .ok)] <+: post) (exec anything p st).tr := by
  obtain ⟨ts, last, h1, h2, h3, h4⟩ := worker_turns p work hp st
  have hw : work = .reconcile ∨ work = .sync := by
    simp only [workers, List.mem_cons, Prod.mk.injEq, List.not_mem_nil, or_false] at hp
    rcases hp with ⟨_, rfl⟩ | ⟨_, rfl⟩ | ⟨_, rfl⟩ <;> simp
  rw [h2]
  have one : ∀ r t, (r, t) ∈ turns work → ∀ z : Trace, Followed work (fun o => o = .fails .error)
      (fun post => [(.putBackoff, .ok), (.taskDone, .ok)] <+: post ++ z) t := by
    intro r t ht z
    apply followed_list
    intro n hn o ho hf
    subst hf
    simp only [turns, List.mem_cons, Prod.mk.injEq, List.not_mem_nil, or_false] at ht
    clear h1 h2 h3 h4
    rcases hw with rfl | rfl <;>
    rcases ht with ⟨rfl, rfl⟩ | ⟨rfl, rfl⟩ | ⟨rfl, rfl⟩ | ⟨rfl, rfl⟩ | ⟨rfl, rfl⟩ | ⟨rfl, rfl⟩ | ⟨rfl, rfl⟩ | ⟨rfl, rfl⟩ | ⟨rfl, rfl⟩ <;>
    (rcases n with _ | _ | _ | _ | n) <;>
      first | (exact absurd hn (by simp only [List.length_cons, List.length_nil]; omega)) | simp_all
  apply followed_flatten
  · intro t ht z
    obtain ⟨u, hu, rfl⟩ := List.mem_map.1 ht
    exact one u.1 u.2 (h1 u hu).1 z
  · have := one _ _ h3 []
    simpa using this

/-- A turn that got an item does not wait for one. -/
theorem turn_later (work : Call) (after : Prog) (hw : work ≠ .get)
    (h : after = .act .resetBackoff ∨ after = .ite .requeued (.act .putBackoff) (.act .resetBackoff))
    (d d1 : List Bool) (evs : List (Out × List Bool)) (o : Out) (ho : o ≠ .fails .cancelled) (ho2 : o ≠ .fails .closed) :
    (exec anything (turn work after) ⟨d, (o, d1) :: evs⟩).res ≠ .waits .get := by
  have hp : doTake .get ⟨d, (o, d1) :: evs⟩ = ⟨.fell, ⟨d1, evs⟩, [(.get, .ok)]⟩ := by
    cases o with
    | ok => rfl
    | fails e => cases e <;> first | rfl | exact absurd rfl ho | exact absurd rfl ho2
  have hl : (exec anything (turn work after) ⟨d, (o, d1) :: evs⟩).tr ≠ [] := by
    have e1 : exec anything (attempt (.take .get) none (some .ret) none .skip .skip) ⟨d, (o, d1) :: evs⟩ =
        ⟨.fell, ⟨d1, evs⟩, [(.get, .ok)]⟩ := by
      simp [attempt, exec, hp, doTry, doFinally, R.after]
    simp [turn, block, exec, e1, R.after]
  intro hx
  have h5 := turn_cases work after h ⟨d, (o, d1) :: evs⟩
  rw [hx] at h5
  simp only [turns, List.mem_cons, Prod.mk.injEq, List.not_mem_nil, or_false, reduceCtorEq, false_and, Res.waits.injEq, true_and,
    false_or] at h5
  rcases h5 with h5 | h5
  · exact hl h5
  · exact hw h5.1.symm

/-- C177: when the queue is closed while a task waits for an item, the task ends. -/
theorem C177_queue_closed (p : Prog) (work : Call) (hp : (p, work) ∈ workers) (st : St) (h : (exec anything p st).res = .waits .get)
    (d : List Bool) : (exec anything p (closedQueue st d)).res = .returned := by
  have h0 : ∃ after, p = .forever (turn work after) ∧
      (after = .act .resetBackoff ∨ after = .ite .requeued (.act .putBackoff) (.act .resetBackoff)) := by
    simp only [workers, List.mem_cons, Prod.mk.injEq, List.not_mem_nil, or_false] at hp
    rcases hp with ⟨rfl, rfl⟩ | ⟨rfl, rfl⟩ | ⟨rfl, rfl⟩
    · exact ⟨_, rfl, .inl rfl⟩
    · exact ⟨_, rfl, .inr rfl⟩
    · exact ⟨_, rfl, .inl rfl⟩
  have hw : work ≠ .get := by
    simp only [workers, List.mem_cons, Prod.mk.injEq, List.not_mem_nil, or_false] at hp
    rcases hp with ⟨_, rfl⟩ | ⟨_, rfl⟩ | ⟨_, rfl⟩ <;> simp
  obtain ⟨after, rfl, ha⟩ := h0
  obtain ⟨st', tr, h1, _, _, h2⟩ := loop_wait (exec_ext anything (turn work after)) _ st .get h
  obtain ⟨j, hj⟩ := h2 [(.fails .closed, d)] ((st.more [(.fails .closed, d)]).evs.length + 1) (by simp [St.more])
  have h3 : st'.evs = [] := by
    obtain ⟨d0, evs⟩ := st'
    match evs, h1 with
    | [], _ => rfl
    | (.fails .closed, d) :: evs, h1 => simp [turn, block, attempt, exec, doTake, doTry, doFinally, pick, R.after] at h1
    | (.fails .cancelled, d) :: evs, h1 => simp [turn, block, attempt, exec, doTake, doTry, doFinally, pick, R.after] at h1
    | (.ok, d) :: evs, h1 => exact absurd h1 (turn_later work after hw ha d0 d evs .ok (by simp) (by simp))
    | (.fails .error, d) :: evs, h1 => exact absurd h1 (turn_later work after hw ha d0 d evs (.fails .error) (by simp) (by simp))
  have e0 : exec anything (.forever (turn work after)) (closedQueue st d) =
      (doLoop (exec anything (turn work after)) (j + 1) (st'.more [(.fails .closed, d)])).after tr := hj
  rw [e0]
  have e1 : (exec anything (turn work after) (st'.more [(.fails .closed, d)])).res = .returned := by
    simp [turn, block, attempt, exec, doAwait, doTake, doTry, doFinally, pick, R.after, St.more, h3]
  simp only [R.after]
  unfold doLoop
  rw [e1]
  exact e1

example : (exec anything reconcilerLoop ⟨[], [(.ok, []), (.fails .error, []), (.ok, [])]⟩).tr =
    [(.get, .ok), (.reconcile, .fails .error), (.putBackoff, .ok), (.taskDone, .ok), (.get, .ok)] := by decide +kernel

example : (exec anything reconcilerLoop ⟨[], [(.ok, []), (.fails .error, []), (.ok, [])]⟩).res = .waits .reconcile := by decide +kernel

example : (exec anything reconcilerLoop ⟨[], [(.ok, []), (.fails .cancelled, [])]⟩).tr =
    [(.get, .ok), (.reconcile, .fails .cancelled), (.taskDone, .ok)] := by decide +kernel

/-! ### Checks -/

/-- The tasks that check something after each pause, and what. -/
def checkers : List (Prog × Call) :=
  [(checkTimeoutsLoop, .checkTimeouts), (checkClustersLoop, .checkClusters), (checkWorkersLoop, .checkWorkers)]

/-- What one turn of such a task does and where it stops. -/
def checks (c : Call) (u : Call) : List (Res × Trace) :=
  [(.waits .sleep, []), (.raised .cancelled, [(.sleep, .fails .cancelled)]), (.waits c, [(.sleep, .ok)]),
    (.fell, [(.sleep, .ok), (c, .ok)]), (.fell, [(.sleep, .ok), (c, .fails .error)]), (.fell, [(.sleep, .ok), (c, .fails .closed)]),
    (.raised .cancelled, [(.sleep, .ok), (c, .fails .cancelled)]),
    (.fell, [(.sleep, .ok), (c, .ok), (u, .ok)]), (.fell, [(.sleep, .ok), (c, .ok), (u, .fails .error)])]

/-- One turn of a task that checks something. -/
def checkTurn (b : Prog) : Prog :=
  block [.pause .sleep, attempt b (some (.raise .cancelled)) none (some .skip) .skip .skip]

theorem check_cases (c u : Call) (b : Prog) (h : b = .await c ∨ b = block [.await c, .sync u]) (st : St) :
    ((exec anything (checkTurn b) st).res, (exec anything (checkTurn b) st).tr) ∈ checks c u := by
  obtain ⟨d, evs⟩ := st
  have rest : ∀ d evs, ∀ o : Out × List Bool, o.1 ≠ .fails .cancelled →
      ((exec anything (checkTurn b) ⟨d, o :: evs⟩).res, (exec anything (checkTurn b) ⟨d, o :: evs⟩).tr) ∈ checks c u := by
    intro d evs o ho
    obtain ⟨o, d1⟩ := o
    have hp : doPause .sleep ⟨d, (o, d1) :: evs⟩ = ⟨.fell, ⟨d1, evs⟩, [(.sleep, .ok)]⟩ := by
      cases o with
      | ok => rfl
      | fails e => cases e <;> first | rfl | exact absurd rfl ho
    match evs, hp with
    | [], hp => rcases h with rfl | rfl <;> simp [checkTurn, block, attempt, exec, hp, doAwait, doTake, doTry, doFinally, checks, pick, R.after]
    | (.fails .error, d') :: evs, hp =>
      rcases h with rfl | rfl <;> simp [checkTurn, block, attempt, exec, hp, doAwait, doTake, doTry, doFinally, checks, pick, R.after]
    | (.fails .closed, d') :: evs, hp =>
      rcases h with rfl | rfl <;> simp [checkTurn, block, attempt, exec, hp, doAwait, doTake, doTry, doFinally, checks, pick, R.after]
    | (.fails .cancelled, d') :: evs, hp =>
      rcases h with rfl | rfl <;> simp [checkTurn, block, attempt, exec, hp, doAwait, doTake, doTry, doFinally, checks, pick, R.after]
    | (.ok, d') :: evs, hp =>
      rcases h with rfl | rfl
      · simp [checkTurn, block, attempt, exec, hp, doAwait, doTake, doTry, doFinally, checks, pick, R.after]
      · match d', hp with
        | [], hp => simp [checkTurn, block, attempt, exec, hp, doAwait, doSync, doTry, doFinally, checks, pick, R.after, anything]
        | true :: d', hp => simp [checkTurn, block, attempt, exec, hp, doAwait, doSync, doTry, doFinally, checks, pick, R.after, anything]
        | false :: d', hp => simp [checkTurn, block, attempt, exec, hp, doAwait, doSync, doTry, doFinally, checks, pick, R.after, anything]
  match evs with
  | [] => simp [checkTurn, block, exec, doPause, checks]
  | (.fails .cancelled, d1) :: evs => simp [checkTurn, block, exec, doPause, checks]
  | (.ok, d1) :: evs => exact rest d evs _ (by simp)
  | (.fails .error, d1) :: evs => exact rest d evs _ (by simp)
  | (.fails .closed, d1) :: evs => exact rest d evs _ (by simp)

/-- C177: records that are no longer needed are removed as soon as the gateway or the controller starts, before it waits for
the first time; the checks begin with waiting, so that what was just started is given time. -/
theorem C177_first (d : List Bool) :
    ((exec anything cleanupDbLoop ⟨d, []⟩).res = .waits .sleep ∧ ∃ o, (exec anything cleanupDbLoop ⟨d, []⟩).tr = [(.cleanupDb, o)]) ∧
    (exec anything cleanupExpiredLoop ⟨true :: d, []⟩).res = .waits .deleteExpired ∧
    (exec anything cleanupExpiredLoop ⟨false :: d, []⟩).res = .waits .sleep ∧
    (∀ p ∈ [checkTimeoutsLoop, checkClustersLoop, checkWorkersLoop], exec anything p ⟨d, []⟩ = ⟨.waits .sleep, ⟨d, []⟩, []⟩) := by
  refine ⟨?_, rfl, rfl, ?_⟩
  · match d with
    | [] => exact ⟨rfl, _, rfl⟩
    | true :: d => exact ⟨rfl, _, rfl⟩
    | false :: d => exact ⟨rfl, _, rfl⟩
  · intro p hp
    simp only [List.mem_cons, List.not_mem_nil, or_false] at hp
    rcases hp with rfl | rfl | rfl <;> rfl

/-- C177: a proxy that has exited is started again at once; if this fails, it is tried again after a pause, without a second
one. -/
theorem C177_restart (d e : List Bool) :
    (exec anything monitorLoop ⟨true :: true :: d, []⟩ = ⟨.waits .sleep, ⟨d, []⟩, [(.startProxy, .ok)]⟩) ∧
    (exec anything monitorLoop ⟨true :: false :: d, [(.ok, true :: true :: e)]⟩ =
      ⟨.waits .sleep, ⟨e, []⟩, [(.startProxy, .fails .error), (.sleep, .ok), (.startProxy, .ok)]⟩) ∧
    (exec anything monitorLoop ⟨false :: d, []⟩ = ⟨.waits .sleep, ⟨d, []⟩, []⟩) := ⟨rfl, rfl, rfl⟩

/-- C177: a watch that ends is opened again, one that ends with an error begins with a new list, and one that goes on is
read on. -/
theorem C177_watch (d e f g : List Bool) :
    ((exec anything informerRun ⟨d, [(.ok, true :: e), (.ok, f), (.ok, false :: false :: g)]⟩).res = .waits .openWatch) ∧
    ((exec anything informerRun ⟨d, [(.ok, true :: e), (.ok, f), (.ok, true :: true :: true :: g)]⟩).res = .waits .list) ∧
    ((exec anything informerRun ⟨d, [(.ok, true :: e), (.ok, f), (.ok, true :: false :: true :: g)]⟩).res = .waits .nextEvent) := by
  refine ⟨?_, ?_, ?_⟩ <;>
    simp [informerRun, watchOnce, block, attempt, exec, doLoop, doAwait, doSync, doTry, doFinally, pick, R.after, anything]

/-- C177: where an adaptive cluster needs more workers, the gateway is told at once, after the need was worked out. -/
theorem C177_more (d : List Bool) :
    (exec anything adaptLoop ⟨true :: true :: d, []⟩ = ⟨.waits .scale, ⟨d, []⟩, [(.adaptTarget, .ok)]⟩) ∧
    (exec anything adaptLoop ⟨true :: false :: d, []⟩ = ⟨.waits .sleep, ⟨d, []⟩, [(.adaptTarget, .ok)]⟩) ∧
    (exec anything adaptLoop ⟨false :: d, []⟩ = ⟨.waits .sleep, ⟨d, []⟩, [(.adaptTarget, .fails .error)]⟩) := ⟨rfl, rfl, rfl⟩

/-- C177: after each pause the task checks again, also when earlier checks failed: a pause that has passed is followed by a
check, or the task is at it. -/
theorem C177_checked (p : Prog) (c : Call) (hp : (p, c) ∈ checkers) (st : St) :
    Followed .sleep (fun o => o = .ok) (fun post => (∃ o rest, post = (c, o) :: rest) ∨ (post = [] ∧ (exec anything p st).res = .waits c))
      (exec anything p st).tr := by
  have h0 : ∃ b u, p = .forever (checkTurn b) ∧ (b = .await c ∨ b = block [.await c, .sync u]) ∧ c ≠ .sleep ∧ u ≠ .sleep ∧
      can anything (fun _ => true) p .spins = false ∧ can anything (fun _ => true) p .fell = false := by
    simp only [checkers, List.mem_cons, Prod.mk.injEq, List.not_mem_nil, or_false] at hp
    rcases hp with ⟨rfl, rfl⟩ | ⟨rfl, rfl⟩ | ⟨rfl, rfl⟩
    · exact ⟨_, .updateClusters, rfl, .inl rfl, by simp, by simp, by decide +kernel, by decide +kernel⟩
    · exact ⟨_, .updateClusters, rfl, .inr rfl, by simp, by simp, by decide +kernel, by decide +kernel⟩
    · exact ⟨_, .updateWorkers, rfl, .inr rfl, by simp, by simp, by decide +kernel, by decide +kernel⟩
  obtain ⟨b, u, rfl, hb, hc, hu, hsp, hfe⟩ := h0
  obtain ⟨ts, last, h1, h2, h3⟩ := loop_turns (check_cases c u b hb) (st.evs.length + 1) st
  have hne : (exec anything (.forever (checkTurn b)) st).res ≠ .fell ∧
      (exec anything (.forever (checkTurn b)) st).res ≠ .spins := by
    rcases (exec_sound anything (fun _ => true) (.forever (checkTurn b)) st (all_al st)).2 with ⟨k, hk, _⟩ | ⟨_, hc, _⟩
    · rw [hk]; exact ⟨by simp, by simp⟩
    · constructor
      · intro hx; rw [hx, hfe] at hc; cases hc
      · intro hx; rw [hx, hsp] at hc; cases hc
  have h4 : ((exec anything (.forever (checkTurn b)) st).res, last) ∈ checks c u := by
    rcases h3 with h3 | h3 | h3
    · exact h3
    · exact absurd h3 hne.2
    · exact absurd h3.1 hne.1
  have e2 : (exec anything (.forever (checkTurn b)) st).tr = (ts.map (·.2)).flatten ++ last := h2
  rw [e2]
  generalize (exec anything (.forever (checkTurn b)) st).res = r at h4 hne
  apply followed_flatten
  · intro t ht z
    obtain ⟨w, hw, rfl⟩ := List.mem_map.1 ht
    obtain ⟨h5, h6⟩ := h1 w hw
    obtain ⟨r', t⟩ := w
    apply followed_list
    intro n hn o ho hf
    subst hf
    simp only [checks, List.mem_cons, Prod.mk.injEq, List.not_mem_nil, or_false] at h5
    rcases h5 with ⟨rfl, rfl⟩ | ⟨rfl, rfl⟩ | ⟨rfl, rfl⟩ | ⟨rfl, rfl⟩ | ⟨rfl, rfl⟩ | ⟨rfl, rfl⟩ | ⟨rfl, rfl⟩ | ⟨rfl, rfl⟩ | ⟨rfl, rfl⟩ <;>
      (rcases n with _ | _ | _ | n) <;>
        first | (exact absurd hn (by simp only [List.length_cons, List.length_nil]; omega)) | simp_all
  · apply followed_list
    intro n hn o ho hf
    subst hf
    simp only [checks, List.mem_cons, Prod.mk.injEq, List.not_mem_nil, or_false] at h4
    rcases h4 with ⟨rfl, rfl⟩ | ⟨rfl, rfl⟩ | ⟨rfl, rfl⟩ | ⟨rfl, rfl⟩ | ⟨rfl, rfl⟩ | ⟨rfl, rfl⟩ | ⟨rfl, rfl⟩ | ⟨rfl, rfl⟩ | ⟨rfl, rfl⟩ <;>
      (rcases n with _ | _ | _ | n) <;>
        first | (exact absurd hn (by simp only [List.length_cons, List.length_nil]; omega)) | simp_all

end Verif.Tasks
