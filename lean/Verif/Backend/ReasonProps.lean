import Verif.Backend.Reason
/-
C97: what a cluster ended as. C98: workers that run are not given up as never started.
-/
set_option linter.unusedVariables false
namespace Verif.Backend

/-! ### C97: what a cluster ended as -/

/-- The user stops a cluster while its scheduler is being started; then the start fails. -/
def stopThenFail : List Ev :=
  [.op (.startCluster "ann" none 0), .op (.getC 0 0), .op (.stopCluster 0 false), .op (.endStartC 0 false), .op (.getC 0 0),
   .op (.getC 0 0), .op (.endStopC 0 0)]

/-- C97 does not hold: a cluster that its user stopped can end as failed. -/
theorem C97_outcome_violated : ∃ (cfg : Cfg) (evs evs' : List Ev) (n : Nat) (c d : Cluster),
    (run cfg evs).find n = some c ∧ ¬ StopRequested c ∧
    (run cfg (evs ++ [.op (.stopCluster n false)] ++ evs')).find n = some d ∧ d.modelStatus = some .failed := by
  cases h1 : (run cfgB (stopThenFail.take 2)).find 0 with
  | none => exact absurd h1 (by
      have : ((run cfgB (stopThenFail.take 2)).find 0).isSome = true := by decide +kernel
      intro e; rw [e] at this; simp at this)
  | some c =>
    cases h2 : (run cfgB stopThenFail).find 0 with
    | none => exact absurd h2 (by
        have : ((run cfgB stopThenFail).find 0).isSome = true := by decide +kernel
        intro e; rw [e] at this; simp at this)
    | some d =>
      refine ⟨cfgB, stopThenFail.take 2, stopThenFail.drop 3, 0, c, d, h1, ?_, h2, ?_⟩
      · have : ((run cfgB (stopThenFail.take 2)).find 0).map (fun c => c.row.target) = some .running := by decide +kernel
        rw [h1] at this
        simp only [Option.map_some, Option.some.injEq] at this
        rw [StopRequested, this, JobStatus.finished]
        simp
      · have : ((run cfgB stopThenFail).find 0).map (fun c => c.modelStatus) = some (some .failed) := by decide +kernel
        rw [h2] at this
        simpa using this

/-- The user stops a cluster while a status check asks about it; then the check says that it has failed. -/
def stopThenCheck : List Ev :=
  [.op (.startCluster "ann" none 0), .op (.getC 0 0), .op (.endStartC 0 true), .op .checkClusters, .op (.stopCluster 0 false),
   .op (.checkClustersEnd [false]), .op (.getC 0 0), .op (.getC 0 0), .op (.endStopC 0 0)]

/-- C97 does not hold with a status check under way either. -/
theorem C97_check_violated : ∃ (cfg : Cfg) (evs evs' : List Ev) (n : Nat) (c d : Cluster),
    (run cfg evs).find n = some c ∧ ¬ StopRequested c ∧ (∀ e ∈ evs', e.reportsFailure n = false) ∧
    (run cfg (evs ++ [.op (.stopCluster n false)] ++ evs')).find n = some d ∧ d.modelStatus = some .failed := by
  cases h1 : (run cfgB (stopThenCheck.take 4)).find 0 with
  | none => exact absurd h1 (by
      have : ((run cfgB (stopThenCheck.take 4)).find 0).isSome = true := by decide +kernel
      intro e; rw [e] at this; simp at this)
  | some c =>
    cases h2 : (run cfgB stopThenCheck).find 0 with
    | none => exact absurd h2 (by
        have : ((run cfgB stopThenCheck).find 0).isSome = true := by decide +kernel
        intro e; rw [e] at this; simp at this)
    | some d =>
      refine ⟨cfgB, stopThenCheck.take 4, stopThenCheck.drop 5, 0, c, d, h1, ?_, by decide, h2, ?_⟩
      · have : ((run cfgB (stopThenCheck.take 4)).find 0).map (fun c => c.row.target) = some .running := by decide +kernel
        rw [h1] at this
        simp only [Option.map_some, Option.some.injEq] at this
        rw [StopRequested, this, JobStatus.finished]
        simp
      · have : ((run cfgB stopThenCheck).find 0).map (fun c => c.modelStatus) = some (some .failed) := by decide +kernel
        rw [h2] at this
        simpa using this

theorem ends_model {n : Nat} {t : JobStatus} {c : Cluster} (h : Ends n t c) (ht : 5 ≤ t.n) :
    c.modelStatus = some .stopping ∨ c.modelStatus = some (if t = .failed then .failed else .stopped) := by
  obtain ⟨-, h2, h3⟩ := h
  unfold Cluster.modelStatus
  rw [h2]
  generalize c.row.status = s at *
  cases s <;> cases t <;> simp [statusMap] at * 

/-- C97, the part that holds. A cluster that was stopped while nothing else had asked it to end is from then on seen
stopping, then with the outcome that was asked for (`failed` is asked for by the gateway, `stopped` by users), unless a
status check on it was under way at that time or a failed start of its scheduler is reported later; later status checks
change nothing. Missing: those two (see `C97_outcome_violated` and `C97_check_violated`). -/
theorem C97_outcome_partial {cfg : Cfg} {evs evs' : List Ev} {n : Nat} {failed : Bool} {c d : Cluster}
    (hc : (run cfg evs).find n = some c) (ha : ¬ StopRequested c)
    (hno : ∀ e ∈ evs', e.reportsFailure n = false) (hk : ∀ l, (run cfg evs).chkC = some l → n ∉ l)
    (hd : (run cfg (evs ++ [.op (.stopCluster n failed)] ++ evs')).find n = some d) :
    d.modelStatus = some .stopping ∨ d.modelStatus = some (if failed then .failed else .stopped) := by
  have hi := run_inv cfg evs
  have hi1 := run_inv cfg (evs ++ [.op (.stopCluster n failed)])
  obtain ⟨hcm, rfl⟩ := sfind_spec hc
  obtain ⟨hdm, hdn⟩ := sfind_spec hd
  rw [StopRequested, finished_iff] at ha
  have htg := (hi.inv c hcm).1.tgt
  have hcl := (hi.inv c hcm).1.clo
  have e : run cfg (evs ++ [.op (.stopCluster c.row.name failed)]) = (run cfg evs).step cfg (.stopCluster c.row.name failed) := by
    simp [run, State.ev]
  have hm : onAll c (acts cfg (run cfg evs) (.stopCluster c.row.name failed)) ∈
      (run cfg (evs ++ [.op (.stopCluster c.row.name failed)])).clusters := by
    rw [e, step_clusters hi (o := .stopCluster c.row.name failed) rfl]
    exact List.mem_map.2 ⟨c, hcm, rfl⟩
  have hE : Ends c.row.name (if failed then .failed else .stopped)
      (onAll c (acts cfg (run cfg evs) (.stopCluster c.row.name failed))) := by
    simp only [acts, hc, stopClusterActs]
    rw [if_pos (show c.row.target.n ≤ JobStatus.running.n by simp; omega)]
    refine ⟨onAll_name _ _, ?_, fun h5 => ?_⟩
    · rw [onAll_cons, onAll_cons, onAll_nil]
      simp [putC1, updC1, Act.onCluster, CUpd.app]
    · rw [onAll_cons, onAll_cons, onAll_nil] at h5
      simp [putC1, updC1, Act.onCluster, CUpd.app] at h5
      omega
  rw [run_append] at hdm
  have hnm : (onAll c (acts cfg (run cfg evs) (.stopCluster c.row.name failed))).row.name = c.row.name := onAll_name _ _
  have := fold_ends evs' hi1 hm hdm (hdn.trans hnm.symm) (t := if failed then .failed else .stopped)
    (by cases failed <;> simp) (by rw [hnm]; exact hE) (Or.inr (by rw [hnm]; exact ⟨hno, by rw [e]; exact hk⟩))
  have := ends_model this (by cases failed <;> simp)
  cases failed <;> simpa using this

/-- A status check that begins after the stop does not ask about the cluster, and changes nothing. -/
example : let evs : List Ev := [.op (.startCluster "ann" none 0), .op (.getC 0 0), .op (.endStartC 0 true)]
    let evs' : List Ev := [.op .checkClusters, .op (.checkClustersEnd [false]), .op (.getC 0 0), .op (.getC 0 0), .op (.endStopC 0 0)]
    (run cfgB evs).chkC = none ∧ evs'.all (fun e => !e.reportsFailure 0) = true ∧
    ((run cfgB (evs ++ [.op (.stopCluster 0 false)] ++ evs')).find 0).map (fun c => c.modelStatus) = some (some .stopped) := by
  decide +kernel

/-- C97, failures. An unfinished cluster that was failed, for whatever reason, is from then on seen stopping, then
failed, whatever happens: no later stop makes it look like one that its user stopped. -/
theorem C97_failed_stays {cfg : Cfg} {evs evs' : List Ev} {c d : Cluster} (hc : c ∈ (run cfg evs).clusters)
    (hf : c.row.target = .failed) (hu : ¬ c.row.status.finished)
    (hd : d ∈ (run cfg (evs ++ evs')).clusters) (hn : d.row.name = c.row.name) :
    d.modelStatus = some .stopping ∨ d.modelStatus = some .failed := by
  rw [finished_iff] at hu
  rw [run_append] at hd
  have := fold_ends evs' (run_inv cfg evs) hc hd hn (t := .failed) (by decide) ⟨rfl, hf, fun h => absurd h hu⟩ (Or.inl rfl)
  exact ends_model this (by decide)

example : seen (run cfgS stopping2) 0 = some (some .stopping, [.running, .running]) ∧
    seen (run cfgS stopped2) 0 = some (some .stopped, [.stopped, .stopped]) ∧
    (stopped2.drop 12).all (fun e => !e.reportsFailure 0) = true ∧ stopped2[11]? = some (.op (.stopCluster 0 false)) := by
  refine ⟨by decide +kernel, by decide +kernel, by decide, by decide⟩

/-! ### C98: workers that run are not given up as never started -/

/-- A worker connects to its scheduler before the call that starts it returns; a minute after its creation the call
returns, and a timeout check comes before the next heartbeat. -/
def lateReturn : List Ev :=
  upTo 1 ++ [.op (.getW 0 1 2000), .op (.heartbeat 0 (beat 1 [1] [] []) 3000), .op (.heartbeat 0 (beat 1 [1] [] []) 62000),
    .op (.endStartW 0 1 true), .op (.checkTimeouts 62001), .op (.getW 0 1 62001)]

/-- C98 does not hold: this worker is running, as every heartbeat says, and the gateway stops it as not started. -/
theorem C98_running_worker_violated : ∃ (cfg : Cfg) (evs evs' : List Ev) (c d : Cluster) (w x : Worker),
    c ∈ (run cfg evs).clusters ∧ w ∈ c.workers ∧ w.row.status = .running ∧
    (∀ e ∈ evs', ∀ n m now, e = .op (.heartbeat n m now) → w.row.name ∈ m.active) ∧
    d ∈ (run cfg (evs ++ evs')).clusters ∧ d.row.name = c.row.name ∧ x ∈ d.workers ∧ x.row.name = w.row.name ∧
    x.row.target = .failed ∧ .stopWorker x.row.name ∈ d.vol.log ∧ d.modelStatus = some .running := by
  cases h1 : (run cfgS (lateReturn.take 8)).find 0 with
  | none => exact absurd h1 (by
      have : ((run cfgS (lateReturn.take 8)).find 0).isSome = true := by decide +kernel
      intro e; rw [e] at this; simp at this)
  | some c =>
    cases h2 : (run cfgS lateReturn).find 0 with
    | none => exact absurd h2 (by
        have : ((run cfgS lateReturn).find 0).isSome = true := by decide +kernel
        intro e; rw [e] at this; simp at this)
    | some d =>
      have w1 : ((run cfgS (lateReturn.take 8)).find 0).map (fun c => c.workers.map (fun w => (w.row.name, w.row.status))) =
          some [(1, .running)] := by decide +kernel
      have w2 : ((run cfgS lateReturn).find 0).map (fun c => (c.workers.map (fun w => (w.row.name, w.row.target)), c.modelStatus,
          decide (Ext.stopWorker 1 ∈ c.vol.log))) = some ([(1, .failed)], some .running, true) := by decide +kernel
      rw [h1] at w1
      rw [h2] at w2
      simp only [Option.map_some, Option.some.injEq, Prod.mk.injEq, decide_eq_true_eq] at w1 w2
      obtain ⟨w2, ms, lg⟩ := w2
      obtain ⟨w, hw, e1⟩ := List.mem_map.1 (show (1, JobStatus.running) ∈ c.workers.map (fun w => (w.row.name, w.row.status)) by
        rw [w1]; simp)
      obtain ⟨x, hx, e2⟩ := List.mem_map.1 (show (1, JobStatus.failed) ∈ d.workers.map (fun w => (w.row.name, w.row.target)) by
        rw [w2]; simp)
      simp only [Prod.mk.injEq] at e1 e2
      refine ⟨cfgS, lateReturn.take 8, lateReturn.drop 8, c, d, w, x, (sfind_spec h1).1, hw, e1.2, ?_, (sfind_spec h2).1,
        (sfind_spec h2).2.trans (sfind_spec h1).2.symm, hx, e2.1.trans e1.1.symm, e2.2, by rw [e2.1]; exact lg, ms⟩
      intro e he n m now hh
      rw [e1.1]
      simp only [lateReturn, upTo, List.drop, List.cons_append, List.nil_append, List.mem_cons, List.not_mem_nil, or_false] at he
      subst hh
      simp only [Ev.op.injEq, Op.heartbeat.injEq, reduceCtorEq, or_false] at he
      rw [he.2.1]
      simp [beat]

/-- C98, the part that holds. A worker that was seen running while no call to start it is in flight is never seen
created or submitted again, in any later state, so no timeout check gives it up as not started. Missing: workers
that connect before the call that starts them returns (see `C98_running_worker_violated`). -/
theorem C98_running_worker_partial {cfg : Cfg} {evs evs' : List Ev} {c d : Cluster} (hc : c ∈ (run cfg evs).clusters)
    (hd : d ∈ (run cfg (evs ++ evs')).clusters) (hn : d.row.name = c.row.name) {w : Worker} (hw : w ∈ c.workers)
    (hr : w.row.status = .running) (hf : w.vol.fl ≠ .starting) :
    ∀ x ∈ d.workers, x.row.name = w.row.name →
      x.row.status ≠ .created ∧ x.row.status ≠ .submitted ∧ ∀ now, ¬ WorkerLate cfg now d x := by
  intro x hx e
  have hi' := run_inv cfg (evs ++ evs')
  have nd := (hi'.inv d hd).1.nodup
  rw [run_append] at hd
  obtain ⟨-, y, hy, e', h3, -⟩ := fold_up evs' (run_inv cfg evs) hc hd hn (x := w.row.name) ⟨rfl, w, hw, rfl, by rw [hr]; decide, hf⟩
  have := name_inj nd hx hy (e.trans e'.symm)
  subst this
  refine ⟨fun h => ?_, fun h => ?_, fun now h => ?_⟩
  · rw [h] at h3; simp at h3
  · rw [h] at h3; simp at h3
  · obtain ⟨-, -, -, h, -⟩ := h
    rw [h] at h3; simp at h3

example : ((run cfgS running2).find 0).map (fun c => c.workers.map (fun w => (w.row.status, w.vol.fl))) =
    some [(.running, .idle), (.running, .idle)] := by decide +kernel

end Verif.Backend
