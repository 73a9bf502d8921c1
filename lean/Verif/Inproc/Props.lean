import Verif.Inproc.Model
/-! Properties C156 and C157: the backend that runs everything in one process. -/
set_option linter.unusedSimpArgs false
set_option linter.unusedVariables false
namespace Verif.Inproc

theorem upd_same {α : Type} (f : Str → α) (k : Str) (v : α) : upd f k v k = v := if_pos rfl
theorem upd_ne {α : Type} (f : Str → α) {k x : Str} (v : α) (h : x ≠ k) : upd f k v x = f x := if_neg h

private theorem mem_failed (f : Str → Bool) (l : List Str) (n : Str) :
    n ∈ ((l.zip (l.map f)).filter (fun x => !x.2)).map (fun x => x.1) ↔ n ∈ l ∧ f n = false := by
  induction l with
  | nil => simp
  | cons a l ih =>
    simp only [List.map_cons, List.zip_cons_cons, List.filter_cons]
    cases h : f a
    · simp only [Bool.not_false, if_true, List.map_cons, List.mem_cons, ih]
      constructor
      · rintro (e | e)
        · exact ⟨.inl e, e ▸ h⟩
        · exact ⟨.inr e.1, e.2⟩
      · rintro ⟨e | e, e'⟩
        · exact .inl e
        · exact .inr ⟨e, e'⟩
    · simp only [Bool.not_true, Bool.false_eq_true, if_false, List.mem_cons, ih]
      constructor
      · rintro ⟨e, e'⟩; exact ⟨.inr e, e'⟩
      · rintro ⟨e | e, e'⟩
        · rw [e, h] at e'; cases e'
        · exact ⟨e, e'⟩

private theorem ok_iff (o : Option Status) : okStatus o = false ↔ o ≠ some .closed := by
  cases o with
  | none => simp [okStatus]
  | some x => cases x <;> simp [okStatus]

/-- C156 fails throughout: a check counts as failed just those submitted clusters and workers that are not there *or run*, and
keeps those that have closed. -/
theorem C156_failed_violated (s : State) (l : List Str) (n : Str) :
    (n ∈ s.failedClusters l ↔ n ∈ l ∧ s.schedulers n ≠ some .closed) ∧
    (n ∈ s.failedWorkers l ↔ n ∈ l ∧ s.workers n ≠ some .closed) := by
  constructor
  · rw [← ok_iff]; exact mem_failed (fun n => okStatus (s.schedulers n)) l n
  · rw [← ok_iff]; exact mem_failed (fun n => okStatus (s.workers n)) l n

/-- C156: so there is a cluster that runs and is counted as failed, next to one that has closed and is not. -/
theorem C156_inverted_violated :
    let s := State.init.run [.startCluster ['c'] .started, .startCluster ['d'] .started, .closes ['d']]
    s.schedulers ['c'] = some .running ∧ s.schedulers ['d'] = some .closed ∧ s.failedClusters [['c'], ['d']] = [['c']] := by
  decide +kernel

/-- C156: one part holds: submitted clusters and workers that are not there at all, as after a restart, are counted as failed. What
is missing: those that run are not, and those that have closed are. -/
theorem C156_absent_partial (s : State) (l : List Str) (n : Str) (h : n ∈ l) :
    (s.schedulers n = none → n ∈ s.failedClusters l) ∧ (s.workers n = none → n ∈ s.failedWorkers l) := by
  constructor
  · intro e; rw [(C156_failed_violated s l n).1]; exact ⟨h, by rw [e]; exact fun h => (by cases h)⟩
  · intro e; rw [(C156_failed_violated s l n).2]; exact ⟨h, by rw [e]; exact fun h => (by cases h)⟩

example :
    let s := State.init.run [.startCluster ['c'] .started, .startWorker ['w'] .started, .restart]
    s.failedClusters [['c']] = [['c']] ∧ s.failedWorkers [['w']] = [['w']] := by decide +kernel

/-- C156: after a restart of the gateway none of the schedulers and workers is there, and all that were submitted, closed or not, are
counted as failed. -/
theorem C156_restart (s : State) (l : List Str) (n : Str) (h : n ∈ l) :
    n ∈ (s.step .restart).failedClusters l ∧ n ∈ (s.step .restart).failedWorkers l :=
  ⟨(C156_absent_partial (s.step .restart) l n h).1 rfl, (C156_absent_partial (s.step .restart) l n h).2 rfl⟩

/-- C157: a cluster that is stopped has no scheduler afterwards, and a worker that is stopped is gone; the others stay as they are. -/
theorem C157_gone (s : State) (n m : Str) (ok : Bool) :
    (s.stopCluster n ok).schedulers n = none ∧ (s.stopWorker n).workers n = none ∧
    (m ≠ n → (s.stopCluster n ok).schedulers m = s.schedulers m ∧ (s.stopWorker n).workers m = s.workers m ∧
      (s.stopCluster n ok).disk m = s.disk m) ∧
    (s.stopCluster n ok).workers = s.workers ∧ (s.stopWorker n).schedulers = s.schedulers := by
  unfold State.stopCluster State.stopWorker
  cases hk : s.schedulers n with
  | none => exact ⟨hk, upd_same _ _ _, fun h => ⟨rfl, upd_ne _ _ h, rfl⟩, rfl, rfl⟩
  | some x =>
    refine ⟨upd_same _ _ _, upd_same _ _ _, fun h => ⟨upd_ne _ _ h, upd_ne _ _ h, ?_⟩, rfl, rfl⟩
    dsimp only
    split
    · exact upd_ne _ _ h
    · rfl

/-- The directories on disk are in the database. -/
private theorem disk_run (ops : List Op) (n : Str) (h : (State.init.run ops).disk n = true) : (State.init.run ops).workdir n = true := by
  have key : ∀ (ops : List Op) (s : State), (∀ n, s.disk n = true → s.workdir n = true) →
      ∀ n, (s.run ops).disk n = true → (s.run ops).workdir n = true := by
    intro ops
    induction ops with
    | nil => intro s h; exact h
    | cons op ops ih =>
      intro s h
      refine ih (s.step op) (fun m hm => ?_)
      have hs := h m
      cases op with
      | startCluster k e => cases e <;> simp only [State.step, State.startCluster, upd] at hm ⊢ <;> grind
      | stopCluster k ok =>
        simp only [State.step, State.stopCluster] at hm ⊢
        cases hk : s.schedulers k <;> simp only [hk, upd] at hm ⊢ <;> grind [upd]
      | startWorker k e => cases e <;> exact hs hm
      | stopWorker k => exact hs hm
      | closes k =>
        simp only [State.step, State.closes] at hm ⊢
        cases hk : s.schedulers k <;> simp only [hk] at hm ⊢ <;> exact hs hm
      | workerCloses k =>
        simp only [State.step, State.workerCloses] at hm ⊢
        cases hk : s.workers k <;> simp only [hk] at hm ⊢ <;> exact hs hm
      | restart => exact hs hm
  exact key ops .init (fun n h => (by cases h)) n h

/-- C157: its working directory, with the credentials of the cluster, is removed if it had a scheduler object and the close did not
raise. What is missing: see the violations. -/
theorem C157_directory_partial (ops : List Op) (n : Str) (h : (State.init.run ops).schedulers n ≠ none) :
    ((State.init.run ops).stopCluster n true).disk n = false := by
  have hd := disk_run ops n
  generalize State.init.run ops = s at h hd ⊢
  cases hk : s.schedulers n with
  | none => exact absurd hk h
  | some x =>
    simp only [State.stopCluster, hk]
    cases hw : s.workdir n with
    | true => simp [upd]
    | false =>
      cases hc : s.disk n with
      | false => simp [hc]
      | true => rw [hd hc] at hw; cases hw

/-- C157 fails for a cluster whose start failed before there was a scheduler, and for one from before a restart of the gateway: the
stop raises `KeyError`, and the working directory is left. -/
theorem C157_directory_violated :
    (State.init.run [.startCluster ['c'] .noObject, .stopCluster ['c'] true]).disk ['c'] = true ∧
    (State.init.run [.startCluster ['c'] .started, .restart, .stopCluster ['c'] true]).disk ['c'] = true := by decide +kernel

/-- C157: and it stays, however often a stop is tried. -/
theorem C157_stays_violated (s : State) (n : Str) (h : s.schedulers n = none) (oks : List Bool) :
    s.run (oks.map (fun ok => .stopCluster n ok)) = s := by
  induction oks with
  | nil => rfl
  | cons ok oks ih =>
    have : s.step (.stopCluster n ok) = s := by simp only [State.step, State.stopCluster, h]
    show (s.step (.stopCluster n ok)).run _ = s
    rw [this]
    exact ih

/-- A cluster is started and stopped, next to another one. -/
example :
    let s := State.init.run [.startCluster ['c'] .started, .startCluster ['d'] .started, .startWorker ['w'] .started,
      .stopWorker ['w'], .stopCluster ['c'] true]
    s.disk ['c'] = false ∧ s.schedulers ['c'] = none ∧ s.disk ['d'] = true ∧ s.schedulers ['d'] = some .running ∧
    s.workers ['w'] = none := by decide +kernel

end Verif.Inproc
