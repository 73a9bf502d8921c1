import Verif.Concurrent.Model
/-! Properties C152 to C155: a cluster object that is used by several tasks at once. -/
set_option linter.unusedSimpArgs false
set_option linter.unusedVariables false
namespace Verif.Concurrent

/-! ### Specification -/

/-- Specification: all steps of a history are of the allowed kind. -/
def Allowed (ok : Obj → Op → Prop) : Obj → List Op → Prop
  | _, [] => True
  | o, op :: ops => ok o op ∧ Allowed ok (o.step op) ops

theorem inv_run {ok : Obj → Op → Prop} {I : Obj → Prop} (hstep : ∀ o op, I o → ok o op → I (o.step op)) (ops : List Op)
    (o : Obj) (h : Allowed ok o ops) (hi : I o) : I (o.run ops) := by
  induction ops generalizing o with
  | nil => exact hi
  | cons op ops ih => exact ih _ h.2 (hstep o op hi h.1)

theorem allowed_all {ok : Obj → Op → Prop} (h : ∀ o op, ok o op) (ops : List Op) (o : Obj) : Allowed ok o ops := by
  induction ops generalizing o with
  | nil => trivial
  | cons op ops ih => exact ⟨h o op, ih _⟩

/-- Specification: whether a call is to shut the cluster down when it stops the object. -/
def wants (soc : Bool) : Kind → Bool
  | .start => soc
  | .close shutdown => shutdown.getD soc

/-! ### C152 -/


private structure Sub (named soc : Bool) (o : Obj) : Prop where
  f_soc : o.shutdownOnClose = soc
  f_fresh : o.status = .created → o.submits = 0 ∧ o.created = none ∧ o.name = none
  f_one : o.submits ≤ 1
  f_none : named = true → o.status ≠ .created ∧ o.submits = 0
  f_passed : o.stop = .watching ∨ o.stop = .closing ∨ o.stop = .done ∨ o.stop = .raised →
    (o.status = .closing ∨ o.status = .closed) ∧ (o.start.live = true → o.start = .pending)
  f_submitting : o.start = .submitting → o.name = none
  f_named : named = false → ∀ n, o.name = some n → o.created = some n
  f_stops : ∀ n ∈ o.stops, o.name = some n ∧ (o.stop = .done ∨ o.stop = .raised)
  f_kind : ∀ k c b, o.callers k = some c → c.pos = .start b → c.kind = .start
  f_wait : ∀ k c b, o.callers k = some c → c.pos = .stop b → o.stop ≠ .none
  f_request : ∀ k c, o.callers k = some c → c.pos = .request → (o.stop = .done ∨ o.stop = .raised) ∧
    ∀ n, o.name = some n → n ∈ o.stops
  f_ended : ∀ k c, o.callers k = some c → c.pos = .ended c.kind.result → wants soc c.kind = true →
    (o.stop = .done ∨ o.stop = .raised) ∧ ∀ n, o.name = some n → n ∈ o.stops

private theorem result_ne (kind : Kind) : kind.result ≠ .cancelled := by cases kind <;> simp [Kind.result]

private theorem stop_final (s : StopPc) (h1 : ¬ s.live = true) (h2 : s ≠ .none) (h3 : s ≠ .cancelled) : s = .done ∨ s = .raised := by
  cases s <;> simp_all [StopPc.live]

private theorem wants_eq (o : Obj) (kind : Kind) : o.wants kind = wants o.shutdownOnClose kind := by
  cases kind <;> rfl

private theorem sub_stepStart (named soc : Bool) (o : Obj) (good : Bool) (h : Sub named soc o) : Sub named soc (o.step (.stepStart good)) := by
  obtain ⟨h1, h2, h3, h4, h5, h6, h7, h8, h9, h10, h11, h12⟩ := h
  simp only [Obj.step, Obj.stepStart]
  repeat' split
  all_goals constructor <;> grind [StartPc.live]

private theorem sub_stepStop (named soc : Bool) (o : Obj) (watch good : Bool) (h : Sub named soc o) : Sub named soc (o.step (.stepStop watch good)) := by
  obtain ⟨h1, h2, h3, h4, h5, h6, h7, h8, h9, h10, h11, h12⟩ := h
  simp only [Obj.step, Obj.stepStop, Obj.beginClosing]
  repeat' split
  all_goals constructor <;> grind [StartPc.live]

private theorem sub_serve (named soc : Bool) (o : Obj) (n : Str) (h : Sub named soc o) : Sub named soc (o.step (.serve n)) := by
  obtain ⟨h1, h2, h3, h4, h5, h6, h7, h8, h9, h10, h11, h12⟩ := h
  simp only [Obj.step, Obj.serve]
  repeat' split
  all_goals constructor <;> grind

private theorem sub_cancel (named soc : Bool) (o : Obj) (k : Nat) (h : Sub named soc o) : Sub named soc (o.step (.cancel k)) := by
  obtain ⟨h1, h2, h3, h4, h5, h6, h7, h8, h9, h10, h11, h12⟩ := h
  simp only [Obj.step, Obj.cancel, Obj.setCaller]
  repeat' split
  all_goals constructor <;> grind [Kind.result, result_ne]

private theorem sub_callStart (named soc : Bool) (o : Obj) (k : Nat) (h : Sub named soc o) : Sub named soc (o.step (.callStart k)) := by
  obtain ⟨h1, h2, h3, h4, h5, h6, h7, h8, h9, h10, h11, h12⟩ := h
  simp only [Obj.step, Obj.callStart, Obj.setCaller]
  repeat' split
  all_goals constructor <;> grind [Kind.result, StartPc.live, result_ne]

private theorem sub_callClose (named soc : Bool) (o : Obj) (k : Nat) (sh : Option Bool) (h : Sub named soc o) : Sub named soc (o.step (.callClose k sh)) := by
  obtain ⟨h1, h2, h3, h4, h5, h6, h7, h8, h9, h10, h11, h12⟩ := h
  simp only [Obj.step, Obj.callClose, Obj.enterStop, Obj.setCaller]
  repeat' split
  all_goals constructor <;> grind [Kind.result, StartPc.live, result_ne]

private theorem sub_resume (named soc : Bool) (o : Obj) (k : Nat) (h : Sub named soc o) : Sub named soc (o.step (.resume k)) := by
  obtain ⟨h1, h2, h3, h4, h5, h6, h7, h8, h9, h10, h11, h12⟩ := h
  simp only [Obj.step, Obj.resume, Obj.afterStop, wants_eq, Obj.enterStop, Obj.setCaller]
  repeat' split
  all_goals constructor <;> grind [Kind.result, StartPc.live, result_ne, stop_final]

private theorem sub_step (named soc : Bool) (o : Obj) (op : Op) (h : Sub named soc o) : Sub named soc (o.step op) := by
  cases op with
  | stepStart good => exact sub_stepStart named soc o good h
  | stepStop watch good => exact sub_stepStop named soc o watch good h
  | serve n => exact sub_serve named soc o n h
  | cancel k => exact sub_cancel named soc o k h
  | callStart k => exact sub_callStart named soc o k h
  | callClose k sh => exact sub_callClose named soc o k sh h
  | resume k => exact sub_resume named soc o k h

private theorem sub_new (soc : Bool) (name : Option Str) : Sub name.isSome soc (.new soc name) := by
  constructor <;> cases name <;> simp [Obj.new, StartPc.live]

private theorem sub_run (soc : Bool) (name : Option Str) (ops : List Op) : Sub name.isSome soc ((Obj.new soc name).run ops) :=
  inv_run (ok := fun _ _ => True) (fun o op h _ => sub_step _ _ o op h) ops _ (allowed_all (fun _ _ => trivial) ops _)
    (sub_new soc name)

/-- C152: however many tasks start and close an object, in whichever order and with whichever cancellations, it submits at most one
cluster, and none if it was made for an existing one. -/
theorem C152_one (soc : Bool) (name : Option Str) (ops : List Op) :
    ((Obj.new soc name).run ops).submits ≤ (if name.isSome then 0 else 1) := by
  have h := sub_run soc name ops
  split
  · rename_i hn
    exact Nat.le_of_eq (h.f_none hn).2
  · exact h.f_one

/-- C152: the object of a new cluster belongs to the cluster that the server created for it. -/
theorem C152_own (soc : Bool) (ops : List Op) (n : Str) (h : ((Obj.new soc none).run ops).name = some n) :
    ((Obj.new soc none).run ops).created = some n :=
  (sub_run soc none ops).f_named rfl n h

private structure Ret (o : Obj) : Prop where
  f_early : o.start = .none ∨ o.start = .pending → o.status = .starting ∨ o.status = .running → o.name ≠ none
  f_later : o.start = .waiting ∨ o.start = .connecting → o.name ≠ none
  f_closing : o.status = .closing ∨ o.status = .closed → o.stop ≠ .none
  f_ok : o.start = .ok → o.name ≠ none ∨ o.stop ≠ .none
  f_ret : ∀ k c, o.callers k = some c → c.kind = .start → c.pos = .ended .returned → o.start = .ok

private theorem ret_stepStart (o : Obj) (good : Bool) (h : Ret o) : Ret (o.step (.stepStart good)) := by
  obtain ⟨h1, h2, h3, h4, h5⟩ := h
  cases hs : o.status
  all_goals
    simp only [Obj.step, Obj.stepStart, hs]
    repeat' split
  all_goals constructor <;> grind [Kind.result, StartPc.live]

private theorem ret_stepStop (o : Obj) (watch good : Bool) (h : Ret o) : Ret (o.step (.stepStop watch good)) := by
  obtain ⟨h1, h2, h3, h4, h5⟩ := h
  simp only [Obj.step, Obj.stepStop, Obj.beginClosing]
  repeat' split
  all_goals constructor <;> grind [Kind.result, StartPc.live]

private theorem ret_serve (o : Obj) (n : Str) (h : Ret o) : Ret (o.step (.serve n)) := by
  obtain ⟨h1, h2, h3, h4, h5⟩ := h
  simp only [Obj.step, Obj.serve]
  repeat' split
  all_goals constructor <;> grind [Kind.result, StartPc.live]

private theorem ret_cancel (o : Obj) (k : Nat) (h : Ret o) : Ret (o.step (.cancel k)) := by
  obtain ⟨h1, h2, h3, h4, h5⟩ := h
  simp only [Obj.step, Obj.cancel, Obj.setCaller]
  repeat' split
  all_goals constructor <;> grind [Kind.result, StartPc.live]

private theorem ret_callStart (o : Obj) (k : Nat) (h : Ret o) : Ret (o.step (.callStart k)) := by
  obtain ⟨h1, h2, h3, h4, h5⟩ := h
  simp only [Obj.step, Obj.callStart, Obj.setCaller]
  repeat' split
  all_goals constructor <;> grind [Kind.result, StartPc.live]

private theorem ret_callClose (o : Obj) (k : Nat) (sh : Option Bool) (h : Ret o) : Ret (o.step (.callClose k sh)) := by
  obtain ⟨h1, h2, h3, h4, h5⟩ := h
  simp only [Obj.step, Obj.callClose, Obj.enterStop, Obj.setCaller]
  repeat' split
  all_goals constructor <;> grind [Kind.result, StartPc.live]

private theorem ret_resume (o : Obj) (k : Nat) (h : Ret o) : Ret (o.step (.resume k)) := by
  obtain ⟨h1, h2, h3, h4, h5⟩ := h
  simp only [Obj.step, Obj.resume, Obj.afterStop, Obj.enterStop, Obj.setCaller]
  repeat' split
  all_goals constructor <;> grind [Kind.result, StartPc.live]

private theorem ret_step (o : Obj) (op : Op) (h : Ret o) : Ret (o.step op) := by
  cases op with
  | stepStart good => exact ret_stepStart o good h
  | stepStop watch good => exact ret_stepStop o watch good h
  | serve n => exact ret_serve o n h
  | cancel k => exact ret_cancel o k h
  | callStart k => exact ret_callStart o k h
  | callClose k sh => exact ret_callClose o k sh h
  | resume k => exact ret_resume o k h

/-- C152: when a start has returned, the start is over without an exception, and the object has its cluster, unless it was closed
meanwhile. -/
theorem C152_returned (soc : Bool) (name : Option Str) (ops : List Op) (k : Nat)
    (h : ((Obj.new soc name).run ops).callers k = some ⟨.start, .ended .returned⟩) :
    ((Obj.new soc name).run ops).start = .ok ∧
    (((Obj.new soc name).run ops).name ≠ none ∨ ((Obj.new soc name).run ops).stop ≠ .none) := by
  have hr : Ret ((Obj.new soc name).run ops) :=
    inv_run (ok := fun _ _ => True) (fun o op h _ => ret_step o op h) ops _ (allowed_all (fun _ _ => trivial) ops _)
      (by constructor <;> cases name <;> simp [Obj.new])
  exact ⟨hr.f_ret k _ h rfl rfl, hr.f_ok (hr.f_ret k _ h rfl rfl)⟩

/-- Two tasks start an object at once: one submission, and both return. -/
example :
    let o := (Obj.new true none).run [.callStart 0, .stepStart true, .callStart 1, .serve ['c'], .stepStart true,
      .stepStart true, .stepStart true, .resume 1, .resume 0]
    o.submits = 1 ∧ o.callers 0 = some ⟨.start, .ended .returned⟩ ∧ o.callers 1 = some ⟨.start, .ended .returned⟩ ∧
    o.name = some ['c'] ∧ o.status = .running := by decide +kernel

/-! ### C153 -/

/-- C153: when a call of `close` that was to shut the cluster down has returned, the request to stop it has been sent, whatever other
tasks did with the object before and do afterwards. -/
theorem C153_close (soc : Bool) (name : Option Str) (ops : List Op) (k : Nat) (shutdown : Option Bool) (n : Str)
    (hk : ((Obj.new soc name).run ops).callers k = some ⟨.close shutdown, .ended .returned⟩)
    (hw : shutdown.getD soc = true) (hn : ((Obj.new soc name).run ops).name = some n) :
    n ∈ ((Obj.new soc name).run ops).stops :=
  ((sub_run soc name ops).f_ended k _ hk rfl hw).2 n hn

/-- C153: and so it has when a start has failed, and its exception was raised. -/
theorem C153_failed (name : Option Str) (ops : List Op) (k : Nat) (n : Str)
    (hk : ((Obj.new true name).run ops).callers k = some ⟨.start, .ended .raised⟩)
    (hn : ((Obj.new true name).run ops).name = some n) : n ∈ ((Obj.new true name).run ops).stops :=
  ((sub_run true name ops).f_ended k _ hk rfl rfl).2 n hn

/-- C153: requests to stop are only sent for the cluster of the object. -/
theorem C153_own (soc : Bool) (name : Option Str) (ops : List Op) (n : Str) (h : n ∈ ((Obj.new soc name).run ops).stops) :
    ((Obj.new soc name).run ops).name = some n :=
  ((sub_run soc name ops).f_stops n h).1

/-- An object is closed by two tasks while a third one still waits for its start. -/
example :
    let o := (Obj.new true none).run [.callStart 0, .stepStart true, .serve ['c'], .stepStart true, .callClose 1 none,
      .callClose 2 (some true), .stepStop false true, .stepStart true, .stepStop false true, .resume 0, .stepStop false true,
      .resume 2, .resume 1, .resume 1, .resume 2]
    o.callers 1 = some ⟨.close none, .ended .returned⟩ ∧ o.callers 2 = some ⟨.close (some true), .ended .returned⟩ ∧
    o.stops = [['c'], ['c']] ∧ o.name = some ['c'] := by decide +kernel

/-- C153 fails when the object is closed during the submission: the task is cancelled before it learns the name, `close` returns, and the
cluster that the server created is left. -/
theorem C153_submission_violated :
    let o := (Obj.new true none).run [.callStart 0, .stepStart true, .serve ['c'], .callClose 1 (some true), .stepStop false true,
      .stepStart true, .stepStop false true, .stepStop false true, .resume 1, .resume 0, .resume 0]
    o.callers 1 = some ⟨.close (some true), .ended .returned⟩ ∧ o.callers 0 = some ⟨.start, .ended .raised⟩ ∧
    o.created = some ['c'] ∧ o.stops = [] := by decide +kernel

/-! ### C154 -/

/-- C154: an object that is not to shut its cluster down never asks for it, unless some call of `close` is told to. -/
theorem C154_keep_partial (name : Option Str) (ops : List Op) (h : ∀ op ∈ ops, ∀ k, op ≠ .callClose k (some true)) :
    ((Obj.new false name).run ops).stops = [] := by
  have key : ∀ (ops : List Op) (o : Obj), (∀ op ∈ ops, ∀ k, op ≠ .callClose k (some true)) → o.shutdownOnClose = false →
      (∀ k c, o.callers k = some c → c.kind ≠ .close (some true)) → o.stops = [] → (o.run ops).stops = [] := by
    intro ops
    induction ops with
    | nil => intro o _ _ _ h; exact h
    | cons op ops ih =>
      intro o ha hs hc hst
      have hop := ha op List.mem_cons_self
      have hw : ∀ kind : Kind, kind ≠ .close (some true) → o.wants kind = false := by
        intro kind hk
        cases kind with
        | start => exact hs
        | close sh =>
          match sh, hk with
          | none, _ => exact hs
          | some false, _ => rfl
          | some true, hk => exact absurd rfl hk
      refine ih (o.step op) (fun op' h' => ha op' (List.mem_cons_of_mem _ h')) ?_ ?_ ?_
      · cases op <;> simp only [Obj.step, Obj.callStart, Obj.callClose, Obj.enterStop, Obj.cancel, Obj.resume, Obj.afterStop,
          Obj.serve, Obj.stepStart, Obj.stepStop, Obj.beginClosing, Obj.setCaller] <;> (repeat' split) <;> exact hs
      · intro k c
        cases op <;> simp only [Obj.step, Obj.callStart, Obj.callClose, Obj.enterStop, Obj.cancel, Obj.resume, Obj.afterStop,
          Obj.serve, Obj.stepStart, Obj.stepStop, Obj.beginClosing, Obj.setCaller] <;> (repeat' split) <;> grind
      · cases op <;> simp only [Obj.step, Obj.callStart, Obj.callClose, Obj.enterStop, Obj.cancel, Obj.resume, Obj.afterStop,
          Obj.serve, Obj.stepStart, Obj.stepStop, Obj.beginClosing, Obj.setCaller] <;> (repeat' split) <;> grind
  exact key ops _ h rfl (fun k c h => (by cases h)) rfl

/-- C154 fails for an object that shuts its cluster down by default and is closed with `shutdown=False` during its start: the start is
cancelled, and the task that waits for it stops the cluster. -/
theorem C154_keep_violated :
    let o := (Obj.new true none).run [.callStart 0, .stepStart true, .serve ['c'], .stepStart true, .callClose 1 (some false),
      .stepStop false true, .stepStart true, .stepStop false true, .stepStop false true, .resume 1, .resume 0, .resume 0, .resume 0]
    o.callers 1 = some ⟨.close (some false), .ended .returned⟩ ∧ o.stops = [['c']] := by decide +kernel

/-- An object is closed without a shutdown, and the cluster is kept. -/
example :
    let o := (Obj.new true none).run [.callStart 0, .stepStart true, .serve ['c'], .stepStart true, .stepStart true, .stepStart true,
      .resume 0, .callClose 1 (some false), .stepStop true true, .stepStop true true, .stepStop true true, .resume 1]
    o.callers 1 = some ⟨.close (some false), .ended .returned⟩ ∧ o.stops = [] ∧ o.status = .closed := by decide +kernel

/-! ### C155 -/

/-- Specification: no call is cancelled while it waits for the stop of the object. -/
def NoCancel (o : Obj) : Op → Prop
  | .cancel k => ∀ c, o.callers k = some c → ∃ b, c.pos = .start b ∨ ∃ r, c.pos = .ended r
  | _ => True

private structure Calm (o : Obj) : Prop where
  f_stop : o.stopCancel = false ∧ o.stop ≠ .cancelled
  f_must : ∀ k c, o.callers k = some c → c.pos ≠ .stop true
  f_ended : ∀ k c, o.callers k = some c → c.pos ≠ .ended .cancelled

private theorem calm_step (o : Obj) (op : Op) (h : Calm o) (ok : NoCancel o op) : Calm (o.step op) := by
  obtain ⟨h1, h2, h3⟩ := h
  cases op with
  | cancel k =>
    simp only [Obj.step, Obj.cancel, Obj.setCaller]
    repeat' split
    all_goals constructor <;> grind [NoCancel]
  | callStart k =>
    simp only [Obj.step, Obj.callStart, Obj.setCaller]
    repeat' split
    all_goals constructor <;> grind
  | callClose k sh =>
    simp only [Obj.step, Obj.callClose, Obj.enterStop, Obj.setCaller]
    repeat' split
    all_goals constructor <;> grind
  | resume k =>
    simp only [Obj.step, Obj.resume, Obj.afterStop, Obj.enterStop, Obj.setCaller]
    repeat' split
    all_goals constructor <;> grind [result_ne]
  | serve n =>
    simp only [Obj.step, Obj.serve]
    repeat' split
    all_goals constructor <;> grind
  | stepStart good =>
    simp only [Obj.step, Obj.stepStart]
    repeat' split
    all_goals constructor <;> grind
  | stepStop watch good =>
    simp only [Obj.step, Obj.stepStop, Obj.beginClosing]
    repeat' split
    all_goals constructor <;> grind

/-- C155: as long as no call is cancelled that waits for the stop, every call of `close` that ends returns. What is missing:
see `C155_cancelled_violated`. -/
theorem C155_returns_partial (soc : Bool) (name : Option Str) (ops : List Op) (h : Allowed NoCancel (.new soc name) ops) (k : Nat)
    (shutdown : Option Bool) (r : Result) (hk : ((Obj.new soc name).run ops).callers k = some ⟨.close shutdown, .ended r⟩) :
    r ≠ .cancelled := by
  have hc := inv_run calm_step ops _ h ⟨⟨rfl, fun h => (by cases h)⟩, fun k c h => (by cases h), fun k c h => (by cases h)⟩
  exact fun e => hc.f_ended k _ hk (by rw [e])

/-- The object of a running cluster; a first call of `close` is cancelled, by a timeout or Ctrl-C, while it closes the connections. A
second one follows. -/
def cancelledOps : List Op :=
  [.callStart 0, .stepStart true, .serve ['c'], .stepStart true, .stepStart true, .stepStart true, .resume 0,
    .callClose 1 (some true), .stepStop true true, .stepStop true true, .cancel 1, .stepStop true true, .resume 1,
    .callClose 2 (some true), .resume 2]

/-- C155 fails after a call of `close` was cancelled: the task of the stop is the cancelled one for ever, so the next call raises
`CancelledError` at once, without asking for the stop of the cluster; and at exit the object is no longer closed either. -/
theorem C155_cancelled_violated :
    let o := (Obj.new true none).run cancelledOps
    o.callers 2 = some ⟨.close (some true), .ended .cancelled⟩ ∧ o.stops = [] ∧ o.lingering = false ∧ o.name = some ['c'] := by
  decide +kernel

/-- C155: from then on no call of `close` asks for the stop of the cluster. -/
theorem C155_forever (o : Obj) (ops : List Op) (h1 : o.stop = .cancelled) :
    (o.run ops).stops = o.stops := by
  have key : ∀ (ops : List Op) (o : Obj), o.stop = .cancelled → (o.run ops).stops = o.stops := by
    intro ops
    induction ops with
    | nil => intro o _; rfl
    | cons op ops ih =>
      intro o hs
      have h' : (o.step op).stop = .cancelled ∧ (o.step op).stops = o.stops := by
        cases op <;> simp only [Obj.step, Obj.callStart, Obj.callClose, Obj.enterStop, Obj.cancel, Obj.resume, Obj.afterStop,
          Obj.serve, Obj.stepStart, Obj.stepStop, Obj.beginClosing, Obj.setCaller] <;> (repeat' split) <;> grind [StopPc.live]
      exact (ih _ h'.1).trans h'.2
  exact key ops o h1

private def Starting (o : Obj) : Prop := o.stop = .starting → o.startCancel = true

private theorem starting_step (o : Obj) (op : Op) (h : Starting o) : Starting (o.step op) := by
  unfold Starting at h ⊢
  cases op <;> simp only [Obj.step, Obj.callStart, Obj.callClose, Obj.enterStop, Obj.cancel, Obj.resume, Obj.afterStop,
    Obj.serve, Obj.stepStart, Obj.stepStop, Obj.beginClosing, Obj.setCaller] <;> (repeat' split) <;> grind

private theorem stepStop_callers (o : Obj) (w g : Bool) : (o.stepStop w g).callers = o.callers := by
  unfold Obj.stepStop Obj.beginClosing
  repeat' split
  all_goals rfl

private theorem stepStart_callers (o : Obj) (g : Bool) : (o.stepStart g).callers = o.callers ∧ (o.stepStart g).stop = o.stop := by
  unfold Obj.stepStart
  repeat' split
  all_goals exact ⟨rfl, rfl⟩

private theorem stepStart_cancel (o : Obj) (g : Bool) (h : o.startCancel = true) : (o.stepStart g).start.live = false := by
  unfold Obj.stepStart
  split
  · assumption
  · rfl

/-- How far the stop is. -/
private def rank : StopPc → Nat
  | .none => 5
  | .pending => 4
  | .starting => 3
  | .watching => 2
  | .closing => 1
  | _ => 0

private theorem stepStop_rank (o : Obj) (w g : Bool) (h : o.stop ≠ .none) (hs : o.stop = .starting → o.start.live = false) :
    rank (o.stepStop w g).stop ≤ rank o.stop - 1 := by
  unfold Obj.stepStop Obj.beginClosing
  cases hc : o.stop <;> dsimp only <;> (repeat' split) <;> simp_all [rank]

private theorem stepStop_rank' (o : Obj) (w g : Bool) (h : o.stop ≠ .none) : rank (o.stepStop w g).stop ≤ 3 := by
  unfold Obj.stepStop Obj.beginClosing
  cases hc : o.stop <;> dsimp only <;> (repeat' split) <;> simp_all [rank]

private theorem rank_live (s : StopPc) (h : rank s = 0) : s.live = false := by cases s <;> simp_all [rank, StopPc.live]

private theorem rank_none (s : StopPc) (h : rank s ≤ 3) : s ≠ .none := by cases s <;> simp_all [rank]

private theorem rank_starting (s : StopPc) (h : rank s ≤ 2) : s ≠ .starting := by cases s <;> simp_all [rank]

private theorem resume_twice (o : Obj) (k : Nat) (kind : Kind) (p : At) (hk : o.callers k = some ⟨kind, p⟩) (hs : o.stop.live = false)
    (hp : ∀ b, p ≠ .start b) : ∃ r, ((o.resume k).resume k).callers k = some ⟨kind, .ended r⟩ := by
  cases p with
  | start b => exact absurd rfl (hp b)
  | stop b =>
    simp only [Obj.resume, hk, hs, Obj.afterStop, Obj.setCaller]
    repeat' split
    all_goals simp_all
  | request => simp [Obj.resume, hk, Obj.setCaller]
  | ended r => exact ⟨r, by simp [Obj.resume, hk]⟩

/-- C155: a call of `close` ends: however the object is used, once its tasks and then the caller have gone on a few times, it is
over. -/
theorem C155_ends (soc : Bool) (name : Option Str) (ops : List Op) (k : Nat) (shutdown : Option Bool) (p : At)
    (hk : ((Obj.new soc name).run ops).callers k = some ⟨.close shutdown, p⟩) (w1 w2 w3 w4 g1 g2 g3 g4 g5 : Bool) :
    ∃ r, (((Obj.new soc name).run ops).run [.stepStop w1 g1, .stepStart g2, .stepStop w2 g3, .stepStop w3 g4, .stepStop w4 g5,
      .resume k, .resume k]).callers k = some ⟨.close shutdown, .ended r⟩ := by
  have hsub := sub_run soc name ops
  have hst : Starting ((Obj.new soc name).run ops) :=
    inv_run (ok := fun _ _ => True) (fun o op h _ => starting_step o op h) ops _ (allowed_all (fun _ _ => trivial) ops _)
      (fun h => (by cases h))
  generalize (Obj.new soc name).run ops = o at hk hsub hst ⊢
  have hp : ∀ b, p ≠ .start b := fun b e => (by
    have := hsub.f_kind k _ b hk (by rw [e])
    cases this)
  show ∃ r, ((((((((o.stepStop w1 g1).stepStart g2).stepStop w2 g3).stepStop w3 g4).stepStop w4 g5).resume k).resume k).callers k) = _
  cases p with
  | start b => exact absurd rfl (hp b)
  | request =>
    refine resume_twice _ k _ .request ?_ ?_ (fun b h => (by cases h))
    · rw [stepStop_callers, stepStop_callers, stepStop_callers, (stepStart_callers _ _).1, stepStop_callers, hk]
    · have hfin := (hsub.f_request k _ hk rfl).1
      have fin : ∀ (o : Obj) w g, (o.stop = .done ∨ o.stop = .raised) → ((o.stepStop w g).stop = .done ∨ (o.stepStop w g).stop = .raised) := by
        intro o w g h
        unfold Obj.stepStop
        rcases h with h | h <;> rw [h] <;> simp [h]
      have h1 := fin o w1 g1 hfin
      rw [← (stepStart_callers (o.stepStop w1 g1) g2).2] at h1
      have h2 := fin _ w4 g5 (fin _ w3 g4 (fin _ w2 g3 h1))
      rcases h2 with h | h <;> rw [h] <;> rfl
  | ended r =>
    refine ⟨r, ?_⟩
    have hc : (((((o.stepStop w1 g1).stepStart g2).stepStop w2 g3).stepStop w3 g4).stepStop w4 g5).callers k =
        some ⟨.close shutdown, .ended r⟩ := by
      rw [stepStop_callers, stepStop_callers, stepStop_callers, (stepStart_callers _ _).1, stepStop_callers, hk]
    generalize ((((o.stepStop w1 g1).stepStart g2).stepStop w2 g3).stepStop w3 g4).stepStop w4 g5 = o' at hc ⊢
    simp [Obj.resume, hc]
  | stop b =>
    refine resume_twice _ k _ (.stop b) ?_ ?_ (fun b h => (by cases h))
    · rw [stepStop_callers, stepStop_callers, stepStop_callers, (stepStart_callers _ _).1, stepStop_callers, hk]
    · have hn := hsub.f_wait k _ b hk rfl
      have h1 := stepStop_rank' o w1 g1 hn
      have h1' : Starting (o.stepStop w1 g1) := starting_step o (.stepStop w1 g1) hst
      have h2 : rank ((o.stepStop w1 g1).stepStart g2).stop ≤ 3 := by rw [(stepStart_callers _ _).2]; exact h1
      have h2' : ((o.stepStop w1 g1).stepStart g2).stop = .starting → ((o.stepStop w1 g1).stepStart g2).start.live = false := by
        intro e
        rw [(stepStart_callers _ _).2] at e
        exact stepStart_cancel _ _ (h1' e)
      generalize (o.stepStop w1 g1).stepStart g2 = o2 at h2 h2' ⊢
      have h3 := stepStop_rank o2 w2 g3 (rank_none _ h2) h2'
      have h3' : rank (o2.stepStop w2 g3).stop ≤ 2 := by omega
      generalize o2.stepStop w2 g3 = o3 at h3' ⊢
      have h4 := stepStop_rank o3 w3 g4 (rank_none _ (by omega)) (fun e => absurd e (rank_starting _ h3'))
      have h4' : rank (o3.stepStop w3 g4).stop ≤ 1 := by omega
      generalize o3.stepStop w3 g4 = o4 at h4' ⊢
      have h5 := stepStop_rank o4 w4 g5 (rank_none _ (by omega)) (fun e => absurd e (rank_starting _ (by omega)))
      exact rank_live _ (by omega)

end Verif.Concurrent
