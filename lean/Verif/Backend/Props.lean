import Verif.Backend.Failures
/-
Properties C16-C32 of the database-backed cluster manager. `run cfg evs` is the gateway after the
history `evs`: any interleaving of API calls, heartbeats, reconciliations, background checks, outcomes
of calls into the concrete backend, and crashes between any two database transactions, each followed by
a restart. Nothing bounds the history, the number of clusters or workers, or the contents of messages.
-/
set_option linter.unusedVariables false
namespace Verif.Backend

/-! ### Concrete histories for the examples -/

/-- A backend that stops all workers with the cluster. -/
def cfgB : Cfg :=
  { bulk := true, clusterStartTimeout := 60, heartbeatTimeout := 15, workerStartTimeout := 60, failLimit := 3, maxAge := 3600 }

/-- A backend that stops workers one by one. -/
def cfgS : Cfg := { cfgB with bulk := false }

/-- A heartbeat. -/
def beat (count : Int) (active closing closed : List Nat) : Msg :=
  { api := "tcp://a", sched := "tls://s", dash := "http://d", count := count, active := active, closing := closing, closed := closed }

/-- A cluster is created, started and heard of; its scheduler asks for `k` workers. -/
def upTo (k : Int) : List Ev :=
  [.op (.startCluster "ann" (some 3) 1000), .op (.getC 0 1000), .op (.yieldC 0 7), .op (.endStartC 0 true),
   .op (.heartbeat 0 (beat k [] [] []) 2000), .op (.getC 0 2000)]

/-- Then its two workers are started and run. -/
def running2 : List Ev :=
  upTo 2 ++ [.op (.getW 0 1 2000), .op (.getW 0 2 2000), .op (.endStartW 0 1 true), .op (.endStartW 0 2 true),
    .op (.heartbeat 0 (beat 2 [1, 2] [] []) 3000)]

/-- Then the user stops the cluster. -/
def stopping2 : List Ev := running2 ++ [.op (.stopCluster 0 false)]

/-- All the work of the stop is done. -/
def stopped2 : List Ev :=
  stopping2 ++ [.op (.getC 0 4000), .op (.getW 0 1 4000), .op (.getW 0 2 4000), .op (.endStopW 0 1 4000),
    .op (.endStopW 0 2 4000), .op (.getC 0 4000), .op (.endStopC 0 4500)]

/-- What a client sees of cluster `n`, and of its workers' statuses. -/
def seen (s : State) (n : Nat) : Option (Option ClusterStatus × List JobStatus) :=
  (s.find n).map (fun c => (c.modelStatus, c.workers.map (fun w => w.row.status)))

example : seen (run cfgS (upTo 2)) 0 = some (some .running, [.created, .created]) := by decide +kernel
example : seen (run cfgS running2) 0 = some (some .running, [.running, .running]) := by decide +kernel
example : seen (run cfgS stopping2) 0 = some (some .stopping, [.running, .running]) := by decide +kernel
example : seen (run cfgS stopped2) 0 = some (some .stopped, [.stopped, .stopped]) := by decide +kernel

/-! ### C16: the reported status only moves forward -/

theorem rank_eq {bulk : Bool} {c : Cluster} (h : CP bulk c) {x : ClusterStatus} (hx : c.modelStatus = some x) :
    x.rank = (if 5 ≤ c.row.status.n then 3 else if 5 ≤ c.row.target.n then 2 else if c.row.status.n = 3 then 1 else 0) := by
  have h1 := h.tgt
  have h2 := h.clo
  unfold Cluster.modelStatus at hx
  generalize c.row.status = s at *
  generalize c.row.target = t at *
  cases s <;> cases t <;> simp [statusMap] at * <;> subst hx <;> rfl

/-- C16. The status a client sees of a cluster only moves along pending, running, stopping, then stopped
or failed; the last two are final, and then the stop time does not change. -/
theorem C16_status_forward {cfg : Cfg} {evs evs' : List Ev} {c d : Cluster} (hc : c ∈ (run cfg evs).clusters)
    (hd : d ∈ (run cfg (evs ++ evs')).clusters) (hn : d.row.name = c.row.name) {x y : ClusterStatus}
    (hx : c.modelStatus = some x) (hy : d.modelStatus = some y) :
    x.Forward y ∧ (x = .stopped ∨ x = .failed → d.row.stopTime = c.row.stopTime) := by
  have l := later_le hc hd hn
  have pc := ((run_inv cfg evs).inv c hc).1
  have pd := ((run_inv cfg (evs ++ evs')).inv d hd).1
  have r1 := rank_eq pc hx
  have r2 := rank_eq pd hy
  have fin : x = .stopped ∨ x = .failed → 5 ≤ c.row.status.n := by
    intro h
    refine Decidable.by_contra (fun h5 => ?_)
    have : x.rank = 3 := by rcases h with rfl | rfl <;> rfl
    rw [this] at r1
    repeat' split at r1
    all_goals omega
  have last {e : Cluster} {z : ClusterStatus} (hz : e.modelStatus = some z) (h5 : 5 ≤ e.row.status.n) :
      z = if e.row.status = .stopped then .stopped else .failed := by
    unfold Cluster.modelStatus at hz
    generalize e.row.status = s at *
    generalize e.row.target = t at *
    cases s <;> cases t <;> simp [statusMap] at * <;> exact hz.symm
  refine ⟨⟨?_, fun h => ?_⟩, fun h => (l.fin (fin h)).2⟩
  · rw [r1, r2]
    have a := l.st
    have b := l.tgt
    have e := pd.clo
    have e' := pd.tgt
    have b1 : 5 ≤ c.row.target.n → 5 ≤ d.row.target.n := fun h => (b h).1
    repeat' split
    all_goals omega
  · have h5 := fin h
    have e := (l.fin h5).1
    rw [last hx h5, last hy (by rw [e]; exact h5), e]

/-- The cluster of the example passes through all four phases. -/
example : seen (run cfgB (upTo 0 |>.take 2)) 0 = some (some .pending, []) ∧
    seen (run cfgB running2) 0 = some (some .running, [.running, .running]) ∧
    seen (run cfgB stopping2) 0 = some (some .stopping, [.running, .running]) ∧
    seen (run cfgS stopped2) 0 = some (some .stopped, [.stopped, .stopped]) := by decide +kernel

/-! ### C17: every stored cluster can be queried -/

/-- A status check of a pending cluster begins; meanwhile the cluster is stopped; then the check reports
that the cluster does not run. -/
def lateCheck : List Ev :=
  [.op (.startCluster "ann" none 0), .op (.getC 0 0), .op (.endStartC 0 true), .op .checkClusters,
   .op (.stopCluster 0 false), .op (.getC 0 10), .op (.getC 0 10), .op (.endStopC 0 20), .op (.checkClustersEnd [false])]

/-- C17 does not hold: a status check that ends after the cluster stopped leaves it without a status, and
from then on `get` of it and `list` with a status selection fail with an internal error. -/
theorem C17_queryable_violated : ∃ (cfg : Cfg) (evs : List Ev) (n : Nat),
    (run cfg evs).apiGet n = none ∧ (run cfg evs).apiList (some "ann") (some [.stopped]) = none := by
  refine ⟨cfgB, lateCheck, 0, ?_, ?_⟩
  · cases h : (run cfgB lateCheck).find 0 with
    | none => exact absurd h (by
        have : ((run cfgB lateCheck).find 0).isSome = true := by decide +kernel
        intro e; rw [e] at this; simp at this)
    | some c =>
      have : ((run cfgB lateCheck).find 0).map (fun c => c.modelStatus) = some none := by decide +kernel
      rw [h] at this
      simp at this
      simp [State.apiGet, h, this]
  · have : ((run cfgB lateCheck).listClusters (some "ann") (some [.stopped])).isNone = true := by decide +kernel
    simp only [State.apiList]
    cases h : (run cfgB lateCheck).listClusters (some "ann") (some [.stopped]) with
    | none => rfl
    | some l => rw [h] at this; simp at this

theorem mapM_some {α β : Type} (f : α → Option β) : ∀ l : List α, (∀ a ∈ l, (f a).isSome = true) → (l.mapM f).isSome = true
  | [], _ => rfl
  | a :: l, h => by
    obtain ⟨b, hb⟩ := Option.isSome_iff_exists.1 (h a (by simp))
    obtain ⟨bs, hbs⟩ := Option.isSome_iff_exists.1 (mapM_some f l (fun x hx => h x (by simp [hx])))
    simp [List.mapM_cons, hb, hbs]

theorem queries_of_status {s : State} (h : ∀ c ∈ s.clusters, c.modelStatus.isSome = true) :
    (∀ n, s.apiGet n ≠ none) ∧ ∀ user statuses, s.apiList user statuses ≠ none := by
  constructor
  · intro n
    simp only [State.apiGet]
    split
    · simp
    · rename_i c hc
      obtain ⟨x, hx⟩ := Option.isSome_iff_exists.1 (h c (sfind_spec hc).1)
      simp [hx]
  · intro user statuses
    have ne {o : Option (List (Cluster × ClusterStatus))} (ho : o.isSome = true) : o ≠ none := by
      intro e; rw [e] at ho; simp at ho
    apply ne
    simp only [State.apiList]
    obtain ⟨l, hl, hs⟩ : ∃ l, s.listClusters user statuses = some l ∧ ∀ c ∈ l, c ∈ s.clusters := by
      simp only [State.listClusters]
      cases statuses with
      | none => exact ⟨_, rfl, fun c hc => (List.mem_filter.1 (List.mem_filter.1 hc).1).1⟩
      | some st =>
        refine ⟨_, if_pos ?_, fun c hc => (List.mem_filter.1 (List.mem_filter.1 hc).1).1⟩
        simp only [List.all_eq_true]
        exact fun c hc => h c (List.mem_filter.1 hc).1
    rw [hl]
    refine mapM_some _ l (fun c hc => ?_)
    obtain ⟨x, hx⟩ := Option.isSome_iff_exists.1 (h c (hs c hc))
    simp [hx]

/-- C17, the part that holds. In every history a cluster that is not finished has a status, whatever happens;
and in every history in which no status check of clusters returns, with or without crashes, `get` and `list`
never fail. Missing: histories in which such a check returns (see `C17_queryable_violated`). -/
theorem C17_queryable_partial (cfg : Cfg) (evs : List Ev) :
    (∀ c ∈ (run cfg evs).clusters, ¬ c.row.status.finished → c.modelStatus.isSome = true) ∧
    (NoCheck evs → (∀ n, (run cfg evs).apiGet n ≠ none) ∧
      ∀ user statuses, (run cfg evs).apiList user statuses ≠ none) := by
  have hi := run_inv cfg evs
  have some_of {c : Cluster} (h : c.modelStatus ≠ none) : c.modelStatus.isSome = true := by
    cases e : c.modelStatus with
    | none => exact (h e).elim
    | some x => rfl
  constructor
  · intro c hc hf
    refine some_of (fun e => hf ?_)
    rw [finished_iff]
    exact ((modelStatus_none (hi.inv c hc).1).1 e).1
  · intro hN
    have ha := fold_agrees (cfg := cfg) hN (sinv_init cfg) (by simp [State.init])
    refine queries_of_status (fun c hc => some_of (fun e => ?_))
    obtain ⟨h5, ne⟩ := (modelStatus_none (hi.inv c hc).1).1 e
    exact ne (ha c hc h5)

/-- C34, in the database backend: the clusters listed when no status is asked for are those whose
status is PENDING or RUNNING. -/
theorem C34_active_clusters (cfg : Cfg) (evs : List Ev) :
    ∀ c ∈ (run cfg evs).clusters,
      c.row.active = true ↔ c.modelStatus = some .pending ∨ c.modelStatus = some .running := by
  intro c hc
  have h := ((run_inv cfg evs).inv c hc).1
  have h1 := h.tgt
  have h2 := h.clo
  unfold Cluster.modelStatus CRow.active
  generalize c.row.status = s at *
  generalize c.row.target = t at *
  cases s <;> cases t <;> simp [statusMap, JobStatus.n] at *

example : NoCheck stopped2 ∧ ∃ c ∈ (run cfgS stopped2).clusters, c.modelStatus = some .stopped := by
  constructor
  · intro e he l
    simp only [stopped2, stopping2, running2, upTo, List.mem_append, List.mem_cons, List.not_mem_nil, or_false] at he
    constructor
    · rintro rfl; simp at he
    · rintro k now rfl; simp at he
  · cases h : (run cfgS stopped2).find 0 with
    | none => exact absurd h (by
        have : ((run cfgS stopped2).find 0).isSome = true := by decide +kernel
        intro e; rw [e] at this; simp at this)
    | some c =>
      have : ((run cfgS stopped2).find 0).map (fun c => c.modelStatus) = some (some .stopped) := by decide +kernel
      rw [h] at this
      exact ⟨c, (sfind_spec h).1, by simpa using this⟩

/-! ### C18: a stop request is never undone -/

/-- C18. Once a cluster was asked to stop, it is asked to stop ever after: it is never seen pending or running
again, it gets no further worker, its scheduler is never started again, and no worker that was asked to stop is
started again. -/
theorem C18_stop_never_undone {cfg : Cfg} {evs evs' : List Ev} {c d : Cluster} (hc : c ∈ (run cfg evs).clusters)
    (hd : d ∈ (run cfg (evs ++ evs')).clusters) (hn : d.row.name = c.row.name) (hs : StopRequested c) :
    StopRequested d ∧ d.modelStatus ≠ some .pending ∧ d.modelStatus ≠ some .running ∧
    d.workers.map (fun w => w.row.name) = c.workers.map (fun w => w.row.name) ∧
    ∃ new, d.vol.log = new ++ c.vol.log ∧ .startCluster ∉ new ∧
      ∀ w ∈ c.workers, w.row.target.finished → .startWorker w.row.name ∉ new := by
  have l := later_le hc hd hn
  have hs' : 5 ≤ c.row.target.n := finished_iff.1 hs
  obtain ⟨ht, hw⟩ := l.tgt hs'
  obtain ⟨new, e, h1, h2⟩ := l.log
  have pd := ((run_inv cfg (evs ++ evs')).inv d hd).1
  refine ⟨finished_iff.2 ht, ?_, ?_, hw, new, e, h1 hs', fun w hw hf => h2 w hw (finished_iff.1 hf)⟩
  · intro hx
    have := rank_eq pd hx
    rw [if_pos ht] at this
    split at this <;> simp [ClusterStatus.rank] at this
  · intro hx
    have := rank_eq pd hx
    rw [if_pos ht] at this
    split at this <;> simp [ClusterStatus.rank] at this

example : ((run cfgS stopping2).find 0).map (fun c => (decide (c.row.target = .stopped), c.workers.length)) = some (true, 2) := by
  decide +kernel

/-! ### C19: a stopping cluster is never forgotten -/

/-- C19. In every reachable state, also after crashes, a cluster that was asked to stop and is not finished has
work queued or in flight, for itself or for one of its unfinished workers. -/
theorem C19_stopping_has_work {cfg : Cfg} {evs : List Ev} {c : Cluster} (hc : c ∈ (run cfg evs).clusters)
    (hs : StopRequested c) (hf : ¬ c.row.status.finished) : c.hasWork := by
  rw [finished_iff] at hf
  exact hasWork_of_unfinished ((run_inv cfg evs).inv c hc) (finished_iff.1 hs) (by omega)

/-- A crash in the middle of the stop: the workers' targets are stored, the cluster's status is not. -/
def crashedStop : List Ev := stopping2 ++ [.crash (.getC 0 4000) 2 5000]

example : ((run cfgS crashedStop).find 0).map (fun c => (c.row.target, c.row.status, c.workers.map (fun w => w.row.target),
    c.vol.pending, c.workers.map (fun w => w.vol.pending))) =
    some (.stopped, .running, [.stopped, .stopped], true, [true, true]) := by decide +kernel

/-! ### C20: a stop completes -/

/-- C20, bound. From any reachable state in which a cluster was asked to stop, in whatever order work is carried
on, for this and for other clusters, at most `6 + 13 k` pieces of it are for this cluster, where `k` is its number
of workers; each is one reconciliation up to its next suspension, or the end of a call into the concrete backend. -/
theorem C20_stop_bounded {cfg : Cfg} {evs : List Ev} {c : Cluster} (hc : c ∈ (run cfg evs).clusters)
    (hs : StopRequested c) {ops : List Op} (ho : ∀ o ∈ ops, o.processing = true) :
    workDone cfg c.row.name (run cfg evs) ops ≤ 6 + 13 * c.workers.length := by
  have hi := run_inv cfg evs
  obtain ⟨d, -, -, h⟩ := work_bound ops hi ho hc (finished_iff.1 hs)
  have := M_le (hi.inv c hc)
  omega

/-- C20, end. If, after work was carried on in whatever order, none is left for the cluster that can be carried
on, then it is stopped or failed and all its workers are finished. So every schedule that does not neglect the
cluster ends it, within the bound of `C20_stop_bounded`. -/
theorem C20_stop_completes {cfg : Cfg} {evs : List Ev} {c : Cluster} (hc : c ∈ (run cfg evs).clusters)
    (hs : StopRequested c) {ops : List Op} (ho : ∀ o ∈ ops, o.processing = true)
    (hq : ∀ o : Op, o.processing = true → o.cluster = some c.row.name → ¬ o.enabled cfg (run cfg (evs ++ ops.map .op))) :
    ∃ d ∈ (run cfg (evs ++ ops.map .op)).clusters, d.row.name = c.row.name ∧ d.row.status.finished ∧
      ∀ w ∈ d.workers, w.row.status.finished := by
  have hi := run_inv cfg evs
  have hi' := run_inv cfg (evs ++ ops.map .op)
  obtain ⟨d, hd, l, -⟩ := work_bound ops hi ho hc (finished_iff.1 hs)
  rw [fold_ops] at hi' hq ⊢
  have I := hi'.inv d hd
  have h5 : 5 ≤ d.row.status.n := by
    refine Decidable.by_contra (fun h5 => ?_)
    obtain ⟨o, h1, h2, h3⟩ := work_enabled hi' hd (hasWork_of_unfinished I (l.tgt (finished_iff.1 hs)).1 (by omega))
    exact hq o h1 (by rw [h2, l.name]) h3
  exact ⟨d, hd, l.name, finished_iff.2 h5, fun w hw => finished_iff.2 ((I.1.ws w hw).cfin h5)⟩

/-- C20, existence. There always is such a schedule, no longer than the bound. -/
theorem C20_stop_reachable {cfg : Cfg} {evs : List Ev} {c : Cluster} (hc : c ∈ (run cfg evs).clusters)
    (hs : StopRequested c) :
    ∃ ops : List Op, (∀ o ∈ ops, o.processing = true) ∧ ops.length ≤ 6 + 13 * c.workers.length ∧
      ∃ d ∈ (run cfg (evs ++ ops.map .op)).clusters, d.row.name = c.row.name ∧ d.row.status.finished ∧
        ∀ w ∈ d.workers, w.row.status.finished := by
  have hi := run_inv cfg evs
  obtain ⟨ops, h1, h2, d, hd, l, h5⟩ := reach_end (6 + 13 * c.workers.length) hi hc (finished_iff.1 hs) (M_le (hi.inv c hc))
  have hi' := run_inv cfg (evs ++ ops.map .op)
  rw [fold_ops] at hi'
  refine ⟨ops, h1, h2, d, by rw [fold_ops]; exact hd, l.name, finished_iff.2 h5, fun w hw => ?_⟩
  exact finished_iff.2 (((hi'.inv d hd).1.ws w hw).cfin h5)

/-- After the operations of `stopped2` no work is left; they did seven pieces of work. -/
example : workDone cfgS 0 (run cfgS stopping2) [.getC 0 4000, .getW 0 1 4000, .getW 0 2 4000, .endStopW 0 1 4000,
    .endStopW 0 2 4000, .getC 0 4000, .endStopC 0 4500] = 7 := by decide +kernel

/-! ### C21: the worker limit -/

/-- C21. The number of workers that were not asked to stop never exceeds the cluster's limit, whatever the
heartbeats say; nor does the stored count. -/
theorem C21_worker_limit {cfg : Cfg} {evs : List Ev} {c : Cluster} (hc : c ∈ (run cfg evs).clusters) {k : Nat}
    (hk : c.row.maxWorkers = some k) :
    (c.workers.filter (fun w => decide (¬ w.row.target.finished))).length ≤ k ∧ c.row.count ≤ k := by
  have h := ((run_inv cfg evs).inv c hc).1.cnt k hk
  refine ⟨?_, h.1⟩
  have e : c.workers.filter (fun w => decide (¬ w.row.target.finished)) = c.activeWorkers := by
    refine List.filter_congr (fun w _ => ?_)
    rw [WRow.active, decide_eq_decide, finished_iff]
    exact Nat.not_le
  rw [e]; exact h.2

/-- The scheduler asks for 50 workers and gets the 3 that are allowed. -/
example : ((run cfgS (upTo 50)).find 0).map (fun c => (c.workers.length, c.row.count)) = some (3, 3) := by decide +kernel

/-! ### C22: requested workers are provided -/

/-- One of two workers closes as the scheduler expected, but the scheduler still asks for two. -/
def expectedClose : List Ev :=
  running2 ++ [.op (.heartbeat 0 (beat 2 [1] [2] []) 4000), .op (.heartbeat 0 (beat 2 [1] [] [2]) 5000),
    .op (.getW 0 2 5000), .op (.endStopW 0 2 5000)]

/-- C22 does not hold: after a worker closed that was announced as closing, nothing is queued or in flight, and the
cluster has fewer active workers than its scheduler last requested. -/
theorem C22_workers_provided_violated : ∃ (cfg : Cfg) (evs : List Ev) (c : Cluster), c ∈ (run cfg evs).clusters ∧
    c.modelStatus = some .running ∧ c.Quiescent ∧
    (c.workers.filter (fun w => decide (¬ w.row.target.finished))).length < c.row.count := by
  cases h : (run cfgS expectedClose).find 0 with
  | none => exact absurd h (by
      have : ((run cfgS expectedClose).find 0).isSome = true := by decide +kernel
      intro e; rw [e] at this; simp at this)
  | some c =>
    have : ((run cfgS expectedClose).find 0).map (fun c => decide (c.modelStatus = some .running ∧
        (c.vol.pending = false ∧ c.vol.fl = .idle ∧ ∀ w ∈ c.workers, w.vol.pending = false ∧ w.vol.fl = .idle) ∧
        ((c.workers.filter (fun w => decide (¬ w.row.target.finished))).length : Int) < c.row.count)) = some true := by decide +kernel
    rw [h] at this
    simp only [Option.map_some, Option.some.injEq, decide_eq_true_eq] at this
    exact ⟨cfgS, expectedClose, c, (sfind_spec h).1, this.1, this.2.1, this.2.2⟩

/-- C22, the part that holds. When nothing is queued or in flight for a running cluster, its active workers together
with the workers that closed after they had been announced as closing are at least the requested count. Missing: the
workers announced as closing are not replaced until the next change (see `C22_workers_provided_violated`). -/
theorem C22_workers_provided_partial {cfg : Cfg} {evs : List Ev} {c : Cluster} (hc : c ∈ (run cfg evs).clusters)
    (hr : c.modelStatus = some .running) (hq : c.Quiescent) :
    c.row.count ≤ (c.workers.filter (fun w => decide (¬ w.row.target.finished))).length +
      (c.workers.filter (fun w => w.row.closeExpected && decide w.row.target.finished)).length := by
  obtain ⟨hp, hv⟩ := (run_inv cfg evs).inv c hc
  have h33 : c.row.status.n = 3 ∧ c.row.target.n = 3 := by
    have := rank_eq hp hr
    have := hp.tgt
    simp only [ClusterStatus.rank] at *
    repeat' split at *
    all_goals omega
  have hs := hv.sup h33.1 h33.2 hq.1
  refine Int.le_trans hs ?_
  have key : ∀ ws : List Worker, (∀ w ∈ ws, w.supplies = true →
      decide (¬ w.row.target.finished) = true ∨ (w.row.closeExpected && decide w.row.target.finished) = true) →
      (ws.filter Worker.supplies).length ≤ (ws.filter (fun w => decide (¬ w.row.target.finished))).length +
        (ws.filter (fun w => w.row.closeExpected && decide w.row.target.finished)).length := by
    intro ws
    induction ws with
    | nil => simp
    | cons w ws ih =>
      intro h
      have ih := ih (fun x hx => h x (by simp [hx]))
      have h1 := h w (by simp)
      simp only [List.filter_cons]
      cases a : w.supplies
      · simp only [Bool.false_eq_true, if_false]
        repeat' split
        all_goals (try simp only [List.length_cons]); omega
      · rcases h1 a with h1 | h1 <;> rw [h1] <;> simp only [if_true, List.length_cons] <;> repeat' split
        all_goals (try simp only [List.length_cons]); omega
  have := key c.workers (fun w hw hsup => by
    by_cases hf : w.row.target.finished
    · right
      simp only [hf, decide_true, Bool.and_true]
      simp only [Worker.supplies, Bool.or_eq_true, decide_eq_true_eq] at hsup
      rcases hsup with h | h
      · exact h
      · rcases (hv.ws w hw).nw3 (finished_iff.1 hf) h with h | h
        · rw [(hq.2.2 w hw).1] at h; simp at h
        · rw [(hq.2.2 w hw).2] at h; simp at h
    · left; simpa using hf)
  simp only [Cluster.supply]
  omega

example : ((run cfgS running2).find 0).map (fun c => decide (c.modelStatus = some .running ∧ c.row.count = 2 ∧
    (c.vol.pending = false ∧ c.vol.fl = .idle ∧ ∀ w ∈ c.workers, w.vol.pending = false ∧ w.vol.fl = .idle))) = some true := by
  decide +kernel

/-! ### C23: finished only after the workers are -/

/-- C23. When a cluster is stored, or was removed, as stopped or failed, the backend's stop call was made for it
after its last start call, and every worker of it is finished. -/
theorem C23_finished_after_workers {cfg : Cfg} {evs : List Ev} {c : Cluster}
    (hc : c ∈ (run cfg evs).clusters ∨ c ∈ (run cfg evs).purged) (hf : c.row.status.finished) :
    StoppedSinceStart c.vol.log ∧ ∀ w ∈ c.workers, w.row.status.finished := by
  have hi := run_inv cfg evs
  have hp : CP cfg.bulk c := hc.elim (fun h => (hi.inv c h).1) (fun h => (hi.gone c h).cp)
  have h5 := finished_iff.1 hf
  exact ⟨stoppedSince_spec (hp.lfin h5), fun w hw => finished_iff.2 ((hp.ws w hw).cfin h5)⟩

/-- The calls made in the example, the first one first. -/
example : ((run cfgS stopped2).find 0).map (fun c => c.vol.log.reverse) =
    some [.startCluster, .startedCluster, .startWorker 1, .startWorker 2, .startedWorker 1, .startedWorker 2,
      .stopWorker 1, .stopWorker 2, .stopCluster] := by decide +kernel

/-! ### C24: no started worker is leaked -/

/-- The gateway dies during the start of a worker; after the restart the cluster is stopped before the worker is
started again. -/
def crashedStart : List Ev :=
  upTo 1 ++ [.op (.getW 0 1 2000), .crash (.endStartW 0 1 true) 0 3000, .op (.stopCluster 0 false), .op (.getC 0 3000),
    .op (.getW 0 1 3000), .op (.getC 0 3000), .op (.endStopC 0 3000)]

/-- C24 does not hold for histories with crashes: a worker whose start was interrupted by a crash can be finished
without any stop call after its start call. -/
theorem C24_no_leak_violated : ∃ (cfg : Cfg) (evs : List Ev) (c : Cluster) (w : Worker), c ∈ (run cfg evs).clusters ∧
    w ∈ c.workers ∧ w.row.status.finished ∧ Leaked cfg.bulk w.row.name c.vol.log := by
  cases h : (run cfgS crashedStart).find 0 with
  | none => exact absurd h (by
      have : ((run cfgS crashedStart).find 0).isSome = true := by decide +kernel
      intro e; rw [e] at this; simp at this)
  | some c =>
    have h1 : ((run cfgS crashedStart).find 0).map (fun c => (c.vol.log, c.workers.map (fun w => (w.row.name, w.row.status)))) =
        some ([.stopCluster, .crash, .startWorker 1, .startedCluster, .startCluster], [(1, .stopped)]) := by decide +kernel
    rw [h] at h1
    simp only [Option.map_some, Option.some.injEq, Prod.mk.injEq] at h1
    obtain ⟨hl, hw⟩ := h1
    have : (1, JobStatus.stopped) ∈ c.workers.map (fun w => (w.row.name, w.row.status)) := by rw [hw]; simp
    obtain ⟨w, hwm, e⟩ := List.mem_map.1 this
    simp only [Prod.mk.injEq] at e
    refine ⟨cfgS, crashedStart, c, w, (sfind_spec h).1, hwm, Or.inl e.2, ?_⟩
    rw [hl, e.1]
    exact ⟨[.stopCluster, .crash], [.startedCluster, .startCluster], rfl, by simp, by simp, by simp [cfgS]⟩

/-- C24, the part that holds. In every history a finished worker can be leaked only if the gateway died during its
last start call; so in histories without crashes no finished worker is leaked. Missing: starts interrupted by a crash
(see `C24_no_leak_violated`). -/
theorem C24_no_leak_partial {cfg : Cfg} {evs : List Ev} {c : Cluster}
    (hc : c ∈ (run cfg evs).clusters ∨ c ∈ (run cfg evs).purged) {w : Worker} (hw : w ∈ c.workers)
    (hf : w.row.status.finished) :
    (Leaked cfg.bulk w.row.name c.vol.log → StartInterrupted w.row.name c.vol.log) ∧
    (CrashFree evs → ¬ Leaked cfg.bulk w.row.name c.vol.log) := by
  have hi := run_inv cfg evs
  have hp : CP cfg.bulk c := hc.elim (fun h => (hi.inv c h).1) (fun h => (hi.gone c h).cp)
  have key : Leaked cfg.bulk w.row.name c.vol.log → StartInterrupted w.row.name c.vol.log := by
    intro hl
    rcases (hp.ws w hw).lfin (finished_iff.1 hf) with h | h
    · exact absurd h (leaked_wst hl)
    · exact wst_lost h
  refine ⟨key, fun hcf hl => ?_⟩
  have := crashFree_log (cfg := cfg) hcf (s := State.init) ⟨by simp [State.init], by simp [State.init]⟩
  rcases hc with h | h
  · exact this.1 c h (key hl).crash
  · exact this.2 c h (key hl).crash

/-- All workers a call was ever made for are workers of the cluster, so the theorem is about every started worker. -/
theorem C24_started_are_known {cfg : Cfg} {evs : List Ev} {c : Cluster}
    (hc : c ∈ (run cfg evs).clusters ∨ c ∈ (run cfg evs).purged) {x : Nat} (h : Leaked cfg.bulk x c.vol.log) :
    ∃ w ∈ c.workers, w.row.name = x := by
  have hi := run_inv cfg evs
  have hp : CP cfg.bulk c := hc.elim (fun h => (hi.inv c h).1) (fun h => (hi.gone c h).cp)
  obtain ⟨w, hw, e⟩ := List.mem_map.1 (hp.lnm x (leaked_wst h))
  exact ⟨w, hw, e⟩

example : CrashFree stopped2 ∧ seen (run cfgS stopped2) 0 = some (some .stopped, [.stopped, .stopped]) := by
  refine ⟨?_, by decide +kernel⟩
  intro e he
  simp only [stopped2, stopping2, running2, upTo, List.mem_append, List.mem_cons, List.not_mem_nil, or_false] at he
  rcases he with (((((h|h|h|h|h|h)|(h|h|h|h|h))|h))|(h|h|h|h|h|h|h)) <;> exact ⟨_, h⟩

/-! ### C25: routes follow the cluster's life -/

/-- C25. In every reachable state: a route of a cluster exists only when the cluster is running or closing, and points
at the address its scheduler reported; and when nothing is queued or in flight for a running cluster, its scheduler's
route exists, and its dashboard's if it has one. -/
theorem C25_routes {cfg : Cfg} {evs : List Ev} {c : Cluster} (hc : c ∈ (run cfg evs).clusters) :
    (∀ a, c.vol.sniRoute = some a → (c.row.status = .running ∨ c.row.status = .closing) ∧ a = c.row.sched) ∧
    (∀ a, c.vol.pathRoute = some a → (c.row.status = .running ∨ c.row.status = .closing) ∧ a = c.row.dash) ∧
    (c.modelStatus = some .running → c.Quiescent → c.row.sched ≠ "" ∧ c.vol.sniRoute = some c.row.sched ∧
      (c.row.dash ≠ "" → c.vol.pathRoute = some c.row.dash)) := by
  obtain ⟨hp, hv⟩ := (run_inv cfg evs).inv c hc
  refine ⟨fun a ha => ?_, fun a ha => ?_, fun hr hq => ?_⟩
  · obtain ⟨h, e⟩ := hv.rt1 a ha
    rw [n_eq3, n_eq4]; exact ⟨h, e⟩
  · obtain ⟨h, e, -⟩ := hv.rt2 a ha
    rw [n_eq3, n_eq4]; exact ⟨h, e⟩
  · have h33 : c.row.status.n = 3 ∧ c.row.target.n = 3 := by
      have := rank_eq hp hr
      have := hp.tgt
      simp only [ClusterStatus.rank] at *
      repeat' split at *
      all_goals omega
    exact ⟨hp.sch h33.1, hv.rt4 (hv.rt5 h33.1 h33.2 hq.1) (Or.inl h33.1)⟩

/-- C25, removed clusters: they have no routes. -/
theorem C25_routes_removed {cfg : Cfg} {evs : List Ev} {c : Cluster} (hc : c ∈ (run cfg evs).purged) :
    c.vol.sniRoute = none ∧ c.vol.pathRoute = none :=
  ⟨((run_inv cfg evs).gone c hc).sni, ((run_inv cfg evs).gone c hc).path⟩

example : ((run cfgS running2).find 0).map (fun c => (c.vol.sniRoute, c.vol.pathRoute)) =
    some (some "tls://s", some "http://d") := by decide +kernel
example : ((run cfgS stopped2).find 0).map (fun c => (c.vol.sniRoute, c.vol.pathRoute)) = some (none, none) := by decide +kernel

/-! ### C26: a restart reloads exactly what was stored -/

/-- C26. After a crash at any point, between any two transactions of any operation in any reachable state, the
restarted gateway knows exactly the clusters and workers it knew before, with the same stored fields; each
unfinished cluster is queued and so is each unfinished worker of an unfinished cluster, nothing else is queued, and
nothing is in flight. -/
theorem C26_restart_reloads (cfg : Cfg) (evs : List Ev) (o : Op) (k : Nat) (now : Int) :
    let before := (run cfg evs).applyAll ((acts cfg (run cfg evs) o).take k)
    let after := run cfg (evs ++ [.crash o k now])
    after.clusters.map (fun c => (c.row, c.workers.map (fun w => w.row))) =
      before.clusters.map (fun c => (c.row, c.workers.map (fun w => w.row))) ∧
    ∀ c ∈ after.clusters, (c.vol.pending = true ↔ ¬ c.row.status.finished) ∧ c.vol.fl = .idle ∧
      ∀ w ∈ c.workers, (w.vol.pending = true ↔ ¬ c.row.status.finished ∧ ¬ w.row.status.finished) ∧ w.vol.fl = .idle := by
  intro before after
  have sp := (prefix_sp (run_inv cfg evs) o k).1
  have e : after.clusters = before.clusters.map (reload now) := by
    have : after = before.restart now := by simp [after, before, run, State.ev]
    rw [this]
    exact restart_clusters sp.synced sp.named now
  constructor
  · rw [e, List.map_map]
    refine List.map_congr_left (fun c _ => ?_)
    simp only [Function.comp, reload_row, reload_workers, List.map_map]
    rfl
  · rw [e]
    intro c hc
    obtain ⟨d, hd, rfl⟩ := List.mem_map.1 hc
    refine ⟨?_, rfl, ?_⟩
    · rw [reload_row, finished_iff, Nat.not_le]
      exact decide_eq_true_iff
    · intro w hw
      rw [reload_workers] at hw
      obtain ⟨x, hx, rfl⟩ := List.mem_map.1 hw
      refine ⟨?_, rfl⟩
      simp only [reload_row, finished_iff, Nat.not_le, Bool.and_eq_true, decide_eq_true_eq]

example : seen (run cfgS (running2 ++ [.crash .shutdown 1 9000])) 0 = some (some .stopping, [.running, .running]) := by
  decide +kernel

/-! ### C27: only finished clusters are purged -/

/-- C27. Expiry removes exactly the clusters that stopped longer ago than the maximum age, in memory and in the
database alike, with their workers. -/
theorem C27_purge_exact (cfg : Cfg) (evs : List Ev) (now : Int) (c : Cluster) :
    let s := run cfg evs
    let s' := run cfg (evs ++ [.op (.cleanup now)])
    (c ∈ s'.clusters ↔ c ∈ s.clusters ∧ ¬ ∃ t, c.row.stopTime = some t ∧ (t : Rat) + 1000 * cfg.maxAge < now) ∧
    s'.db = s'.clusters.map (fun c => (c.row, c.workers.map (fun w => w.row))) := by
  intro s s'
  have hi : SInv cfg s := run_inv cfg evs
  have hi' : SInv cfg s' := run_inv cfg (evs ++ [.op (.cleanup now)])
  have e : s' = s.step cfg (.cleanup now) := by simp [s', s, run, State.ev]
  have ex (r : CRow) : expired cfg now r = true ↔ ∃ t, r.stopTime = some t ∧ (t : Rat) + 1000 * cfg.maxAge < now := by
    simp only [expired]
    cases r.stopTime with
    | none => simp
    | some t => simp [before_iff]
  refine ⟨?_, hi'.synced⟩
  rw [e]
  simp only [State.step, acts, cleanupActs, applyAll_cons, applyAll_nil, State.apply, List.mem_filter, Bool.not_eq_true',
    decide_eq_false_iff_not]
  refine and_congr_right (fun hc => not_congr ?_)
  rw [← ex]
  constructor
  · intro h
    obtain ⟨x, hx, en⟩ := List.mem_map.1 h
    obtain ⟨hx, hexp⟩ := List.mem_filter.1 hx
    rw [show s.db = _ from hi.synced] at hx
    obtain ⟨d, hd, rfl⟩ := List.mem_map.1 hx
    rwa [cname_inj hi.named.nodup hd hc en] at hexp
  · intro h
    refine List.mem_map.2 ⟨c.entry, List.mem_filter.2 ⟨?_, h⟩, rfl⟩
    rw [show s.db = _ from hi.synced]
    exact List.mem_map.2 ⟨c, hc, rfl⟩

/-- C27. No cluster that is not finished is ever removed: in every later state each known cluster is known, or was
removed and was finished then. A stop time is stored exactly for finished clusters. -/
theorem C27_only_finished (cfg : Cfg) (evs evs' : List Ev) :
    (∀ c ∈ (run cfg evs).clusters, ∃ d, d.row.name = c.row.name ∧ (d ∈ (run cfg (evs ++ evs')).clusters ∨
      d ∈ (run cfg (evs ++ evs')).purged ∧ d.row.status.finished)) ∧
    (∀ c ∈ (run cfg evs).clusters, c.row.stopTime.isSome = true ↔ c.row.status.finished) := by
  refine ⟨fun c hc => ?_, fun c hc => ?_⟩
  · obtain ⟨i1, i2, -⟩ := fold_le evs' (run_inv cfg evs)
    rw [run_append]
    obtain ⟨d, hd, l⟩ := i2 c hc
    refine ⟨d, l.name, hd.imp id (fun h => ⟨h, finished_iff.2 (i1.gone d h).fin⟩)⟩
  · rw [((run_inv cfg evs).inv c hc).1.stt, finished_iff]

/-- C27, look-ups. What is kept in memory is what is stored; names are unique, among clusters that were removed too, so a
look-up by name finds exactly the cluster of that name. -/
theorem C27_lookups (cfg : Cfg) (evs : List Ev) :
    let s := run cfg evs
    s.db = s.clusters.map (fun c => (c.row, c.workers.map (fun w => w.row))) ∧
    (∀ n c, s.find n = some c ↔ c ∈ s.clusters ∧ c.row.name = n) ∧
    (∀ c ∈ s.clusters, ∀ d ∈ s.clusters, c.row.name = d.row.name → c = d) := by
  intro s
  have hi : SInv cfg s := run_inv cfg evs
  refine ⟨hi.synced, fun n c => ⟨sfind_spec, ?_⟩, fun c hc d hd e => cname_inj hi.named.nodup hc hd e⟩
  rintro ⟨hc, rfl⟩
  exact sfind_mem hi.named.nodup hc

example : ((run cfgS (stopped2 ++ [.op (.cleanup 3604500)])).find 0).isSome = true ∧
    ((run cfgS (stopped2 ++ [.op (.cleanup 3604501)])).find 0).isSome = false ∧
    ((run cfgS (running2 ++ [.op (.cleanup 99999999)])).find 0).isSome = true := by decide +kernel

/-! ### C28: timeouts -/

/-- A cluster is submitted and heard of, the gateway dies before it is seen running, and after the restart it
becomes running without a heartbeat; another cluster never comes up. -/
def unheard : List Ev :=
  [.op (.startCluster "ann" none 0), .op (.getC 0 0), .op (.endStartC 0 true), .op (.startCluster "bob" none 0),
   .op (.getC 1 0), .op (.endStartC 1 true),
   .op (.heartbeat 0 (beat 0 [] [] []) 1000), .crash .checkClusters 0 2000, .op (.getC 0 2000)]

/-- C28 does not hold: in this state a timeout check fails with an internal error before it does anything, so a
cluster whose start is long overdue is not failed, however late the check comes. -/
theorem C28_timeouts_violated : ∃ (cfg : Cfg) (evs : List Ev), ∀ now : Int, 60000 < now →
    ∃ c ∈ (run cfg evs).clusters, ClusterLate cfg now c ∧
      ∀ d ∈ (run cfg (evs ++ [.op (.checkTimeouts now)])).clusters, d.row.name = c.row.name → ¬ StopRequested d := by
  refine ⟨cfgB, unheard, fun now hn => ?_⟩
  have hi := run_inv cfgB unheard
  have ex (n : Nat) (p : Cluster → Bool) (h : ((run cfgB unheard).find n).map p = some true) :
      ∃ c ∈ (run cfgB unheard).clusters, c.row.name = n ∧ p c = true := by
    cases hf : (run cfgB unheard).find n with
    | none => rw [hf] at h; simp at h
    | some c =>
      rw [hf] at h
      exact ⟨c, (sfind_spec hf).1, (sfind_spec hf).2, by simpa using h⟩
  obtain ⟨a, ha, -, pa⟩ := ex 0 (fun c => decide (c.row.status = .running ∧ c.row.target = .running ∧ c.vol.lastHb = none)) (by decide +kernel)
  obtain ⟨b, hb, nb, pb⟩ := ex 1 (fun c => decide (c.row.status = .submitted ∧ c.row.target = .running ∧ c.row.startTime = 0)) (by decide +kernel)
  simp only [decide_eq_true_eq] at pa pb
  have hr : timeoutsRaise cfgB now (run cfgB unheard) = true := by
    refine List.any_eq_true.2 ⟨a, ha, ?_⟩
    simp [timeoutCluster, CRow.active, pa, JobStatus.n]
  refine ⟨b, hb, ⟨?_, Or.inl ⟨pb.1, ?_⟩⟩, ?_⟩
  · simp [StopRequested, JobStatus.finished, pb]
  · rw [pb.2.2]
    have : ((60000 : Int) : Rat) < (now : Rat) := Rat.intCast_lt_intCast.2 hn
    have h6 : ((60000 : Int) : Rat) = 0 + 1000 * 60 := by decide +kernel
    have h0 : (((0 : Int)) : Rat) = 0 := by decide +kernel
    rw [h6] at this
    rw [h0]
    exact this
  · have e : run cfgB (unheard ++ [.op (.checkTimeouts now)]) = (run cfgB unheard).step cfgB (.checkTimeouts now) := by
      simp [run, State.ev]
    rw [e, step_clusters hi rfl]
    simp only [acts, timeoutActs, hr, if_true, onAll_nil]
    intro d hd en
    rw [List.map_id'] at hd
    rw [cname_inj hi.named.nodup hd hb en]
    simp [StopRequested, JobStatus.finished, pb]

/-- C28, the part that holds. Unless some running cluster was not heard of since the gateway started, a timeout check
asks to fail, and queues, exactly the late clusters and the late workers, and changes nothing else about any cluster.
Missing: states with such a cluster (see `C28_timeouts_violated`). -/
theorem C28_timeouts_partial (cfg : Cfg) (evs : List Ev) (now : Int)
    (hb : ∀ c ∈ (run cfg evs).clusters, ¬ StopRequested c → c.row.status = .running → c.vol.lastHb ≠ none) :
    (run cfg (evs ++ [.op (.checkTimeouts now)])).clusters = (run cfg evs).clusters.map (afterTimeout cfg now) := by
  have hi := run_inv cfg evs
  have e : run cfg (evs ++ [.op (.checkTimeouts now)]) = (run cfg evs).step cfg (.checkTimeouts now) := by
    simp [run, State.ev]
  rw [e]
  refine timeout_step hi ?_
  simp only [timeoutsRaise, List.any_eq_false, decide_eq_true_eq]
  intro c hc hr
  simp only [timeoutCluster] at hr
  split at hr
  · simp at hr
  · rename_i ha
    have ha := (active_iff (bulk := true)).1 (by simpa using ha)
    split at hr
    · split at hr <;> simp at hr
    · split at hr
      · rename_i hs
        split at hr
        · rename_i hl; exact hb c hc ha hs hl
        · split at hr <;> simp at hr
      · simp at hr

/-- The heartbeat of `running2` came at 3000 ms and the timeout is 15 s. -/
example : ((run cfgS (running2 ++ [.op (.checkTimeouts 18000)])).find 0).map (fun c => c.row.target) = some .running ∧
    ((run cfgS (running2 ++ [.op (.checkTimeouts 18001)])).find 0).map (fun c => c.row.target) = some .failed := by
  decide +kernel

/-! ### C29: heartbeats never over-stop -/

/-- C29, running workers. A heartbeat asks a worker to stop only if the scheduler reports it closed (and neither
active nor closing), or it has not started to run and is not mentioned. -/
theorem C29_only_closed_or_waiting {cfg : Cfg} {evs : List Ev} {n : Nat} {m : Msg} {now : Int} {c d : Cluster} {w w' : Worker}
    (hc : (run cfg evs).find n = some c) (hd : (run cfg (evs ++ [.op (.heartbeat n m now)])).find n = some d)
    (hw : w ∈ c.workers) (hw' : w' ∈ d.workers) (hn : w'.row.name = w.row.name) (ht : w'.row.target ≠ w.row.target) :
    w'.row.target.finished ∧
    ((¬ w.row.status.finished ∧ w.row.name ∈ m.closed ∧ w.row.name ∉ m.active ∧ w.row.name ∉ m.closing) ∨
     w.waiting m = true) := by
  have hi := run_inv cfg evs
  have hnd := (hi.inv c (sfind_spec hc).1).1.nodup
  have e : run cfg (evs ++ [.op (.heartbeat n m now)]) = (run cfg evs).step cfg (.heartbeat n m now) := by
    simp [run, State.ev]
  rw [e, step_find hi rfl, hc] at hd
  simp only [acts, hc, Option.map_some, Option.some.injEq] at hd
  subst hd
  by_cases hstop : c.row.target.n ≤ 3
  · cases hr : hbRaises c m
    · rw [hb_workers now hstop hr] at hw'
      obtain ⟨x, hx, rfl⟩ := List.mem_map.1 hw'
      have := name_inj hnd hx hw hn
      subst this
      obtain ⟨h5, h⟩ := hb_target_changed hnd hx ht
      refine ⟨finished_iff.2 h5, h.imp ?_ (fun h => h.1)⟩
      rintro ⟨a, b, d, e⟩
      exact ⟨by rwa [finished_iff], e, d, b⟩
    · exfalso
      have : (onAll c (heartbeatActs c m now)).workers = c.workers := by
        have : ¬ c.row.target.n > JobStatus.running.n := Nat.not_lt.2 hstop
        simp only [heartbeatActs, if_neg this, hr, if_true, List.append_nil]
        rw [onAll_cons, onAll_nil, volC_on _ _ _ rfl]
      rw [this] at hw'
      exact ht (by rw [name_inj hnd hw' hw hn])
  · exfalso
    have : c.row.target.n > JobStatus.running.n := Nat.lt_of_not_le hstop
    have : (onAll c (heartbeatActs c m now)).workers = c.workers := by
      simp only [heartbeatActs, if_pos this, onAll_nil]
    rw [this] at hw'
    exact ht (by rw [name_inj hnd hw' hw hn])

/-- Two workers are requested: worker 1 is submitted, worker 2 is starting. One is too many now: worker 2, not yet
submitted, is asked to stop. Its start ends and it is submitted, and its stop call has not ended when the next
heartbeat comes. -/
def overStop : List Ev :=
  upTo 2 ++ [.op (.getW 0 1 2000), .op (.endStartW 0 1 true), .op (.getW 0 2 2000),
    .op (.heartbeat 0 (beat 1 [] [] []) 3000), .op (.endStartW 0 2 true), .op (.getW 0 2 3000)]

/-- C29 does not hold for the pending workers: workers that were already asked to stop count as pending until their stop
call ends. Here one worker is requested, one is waiting that was not asked to stop, none is active; and the heartbeat
that says so asks it to stop. -/
theorem C29_never_over_stops_violated : ∃ (cfg : Cfg) (evs : List Ev) (n : Nat) (m : Msg) (now : Int) (c d : Cluster),
    (run cfg evs).find n = some c ∧ (run cfg (evs ++ [.op (.heartbeat n m now)])).find n = some d ∧
    m.count = 1 ∧ m.active = [] ∧
    (c.workers.filter (fun w => w.waiting m && decide (¬ w.row.target.finished))).length = 1 ∧
    (d.workers.filter (fun w => w.waiting m && decide (¬ w.row.target.finished))).length = 0 := by
  have h : ((run cfgS overStop).find 0).isSome = true ∧
      ((run cfgS (overStop ++ [.op (.heartbeat 0 (beat 1 [] [] []) 4000)])).find 0).isSome = true ∧
      (((run cfgS overStop).find 0).map (fun c =>
        (c.workers.filter (fun w => w.waiting (beat 1 [] [] []) && decide (¬ w.row.target.finished))).length)) = some 1 ∧
      (((run cfgS (overStop ++ [.op (.heartbeat 0 (beat 1 [] [] []) 4000)])).find 0).map (fun c =>
        (c.workers.filter (fun w => w.waiting (beat 1 [] [] []) && decide (¬ w.row.target.finished))).length)) = some 0 := by
    decide +kernel
  obtain ⟨h1, h2, h3, h4⟩ := h
  obtain ⟨c, hc⟩ := Option.isSome_iff_exists.1 h1
  obtain ⟨d, hd⟩ := Option.isSome_iff_exists.1 h2
  rw [hc] at h3
  rw [hd] at h4
  exact ⟨cfgS, overStop, 0, beat 1 [] [] [], 4000, c, d, hc, hd, rfl, rfl, by simpa using h3, by simpa using h4⟩

private theorem nodup_eraseDups (k : Nat) : ∀ l : List Nat, l.length ≤ k → l.eraseDups.Nodup := by
  induction k with
  | zero => intro l h; rw [List.length_eq_zero_iff.1 (Nat.le_zero.1 h)]; exact List.nodup_nil
  | succ k ih =>
    intro l h
    cases l with
    | nil => exact List.nodup_nil
    | cons a l =>
      rw [List.eraseDups_cons, List.nodup_cons]
      refine ⟨?_, ih _ (Nat.le_trans (List.length_filter_le _ _) (by simpa using h))⟩
      rw [List.mem_eraseDups]
      simp

/-- Specification: so many different names are on the list. -/
def Distinct (l : List Nat) (k : Nat) : Prop := ∃ u : List Nat, u.Nodup ∧ (∀ x, x ∈ u ↔ x ∈ l) ∧ u.length = k

private theorem setLen_distinct {l : List Nat} {k : Nat} (h : Distinct l k) : setLen l = k := by
  obtain ⟨u, hu, hm, rfl⟩ := h
  have hn := nodup_eraseDups _ l (Nat.le_refl _)
  refine Nat.le_antisymm ?_ ?_
  · exact hn.length_le_of_subset (fun x hx => (hm x).2 (List.mem_eraseDups.1 hx))
  · exact hu.length_le_of_subset (fun x hx => List.mem_eraseDups.2 ((hm x).1 hx))

/-- Specification: the requested count, cut to the limit. -/
def Clamped (limit : Option Nat) (requested count : Int) : Prop :=
  count ≤ requested ∧ (∀ k : Nat, limit = some k → count ≤ k) ∧ (count = requested ∨ ∃ k : Nat, limit = some k ∧ count = k)

private theorem hbCount_clamped {mx : Option Nat} {r count : Int} (h : Clamped mx r count) : hbCount mx r = count := by
  obtain ⟨h1, h2, h3⟩ := h
  cases mx with
  | none =>
    rcases h3 with h | ⟨k, hk, _⟩
    · rw [h]; rfl
    · cases hk
  | some m =>
    have := h2 m rfl
    unfold hbCount
    dsimp only
    rcases h3 with h | ⟨k, hk, e⟩
    · split <;> omega
    · cases hk
      split <;> omega

/-- C29, pending workers, the part that holds. If none of the waiting workers was already asked to stop, then a heartbeat
that is processed leaves so many of them that reported-active and waiting workers are not fewer than the requested count
(clamped to the limit), unless it stops none at all; and not more than that count or the active ones. Missing: clusters
in which a waiting worker was asked to stop before (see `C29_never_over_stops_violated`). -/
theorem C29_never_over_stops_partial {cfg : Cfg} {evs : List Ev} {n : Nat} {m : Msg} {now : Int} {c d : Cluster}
    {active : Nat} {count : Int} (hact : Distinct m.active active) (hcnt : Clamped c.row.maxWorkers m.count count)
    (hc : (run cfg evs).find n = some c) (hd : (run cfg (evs ++ [.op (.heartbeat n m now)])).find n = some d)
    (hs : ¬ StopRequested c) (hr : hbRaises c m = false)
    (ha : ∀ w ∈ c.workers, w.waiting m = true → ¬ w.row.target.finished) :
    let waiting := c.workers.filter (Worker.waiting m)
    let left := d.workers.filter (fun w => w.waiting m && decide (¬ w.row.target.finished))
    (left.length = waiting.length ∨ count ≤ active + left.length) ∧
    (active + left.length : Int) ≤ max count active := by
  intro waiting left
  have hi := run_inv cfg evs
  have I := hi.inv c (sfind_spec hc).1
  have hnd := I.1.nodup
  have ht : c.row.target.n ≤ 3 := by
    have := I.1.tgt
    have := mt finished_iff.2 hs
    omega
  have e : run cfg (evs ++ [.op (.heartbeat n m now)]) = (run cfg evs).step cfg (.heartbeat n m now) := by
    simp [run, State.ev]
  rw [e, step_find hi rfl, hc] at hd
  simp only [acts, hc, Option.map_some, Option.some.injEq] at hd
  have hw : d.workers = c.workers.map (hbW c m) := by rw [← hd]; exact hb_workers now ht hr
  have hlen : left.length = (waiting.filter (fun w => decide (¬ (hbW c m w).row.target.finished))).length := by
    simp only [left, waiting, hw, List.filter_map, List.length_map, List.filter_filter]
    congr 1
    refine List.filter_congr (fun w hwm => ?_)
    simp only [Function.comp]
    have : (hbW c m w).waiting m = w.waiting m := by
      by_cases hnr : w.row.name ∈ hbNewlyRunning c m
      · obtain ⟨x, hx, en⟩ := List.mem_map.1 hnr
        have hx := (List.mem_filter.1 hx).1
        simp only [List.mem_append, mem_hbPick] at hx
        have key : m.mentions w.row.name := by
          rcases hx with ⟨hm, hcl⟩ | ⟨hm, hcl⟩
          · rw [name_inj hnd hm hwm en] at hcl
            by_cases h : w.row.name ∈ m.closing
            · exact Or.inr (Or.inl h)
            · simp only [hbClass, h, if_false] at hcl
              repeat' split at hcl
              all_goals simp at hcl
          · rw [name_inj hnd hm hwm en] at hcl
            by_cases h : w.row.name ∈ m.active
            · exact Or.inl h
            · simp only [hbClass, h, if_false] at hcl
              repeat' split at hcl
              all_goals simp at hcl
        have key' : m.mentions (hbW c m w).row.name := key
        simp [Worker.waiting, key, key']
      · have hst : (hbW c m w).row.status = w.row.status := if_neg hnr
        unfold Worker.waiting
        rw [hst]; rfl
    rw [this, Bool.and_comm]
  have h1 := left_length hnd m ha
  have h2 : (hbPick c m .created ++ hbPick c m .submitted).length = waiting.length := (pend_perm hnd m).length_eq
  have h3 : (hbToStop c m).length = (if (active : Int) + waiting.length - count > 0 then
      min ((active : Int) + waiting.length - count).toNat waiting.length else 0) := by
    simp only [hbToStop, h2, setLen_distinct hact, hbCount_clamped hcnt]
    split
    · rw [List.length_take, h2]
    · rfl
  change (waiting.filter _).length + _ = waiting.length at h1
  rw [← hlen] at h1
  split at h3 <;> omega

example : Distinct [7, 3, 7] 2 ∧ Clamped (some 5) 9 5 ∧ Clamped none 9 9 ∧ Clamped (some 5) (-1) (-1) := by
  refine ⟨⟨[7, 3], by decide, ?_, rfl⟩, ⟨by decide, fun k h => ?_, Or.inr ⟨5, rfl, rfl⟩⟩,
    ⟨by decide, fun k h => (by cases h), Or.inl rfl⟩, ⟨by decide, fun k h => ?_, Or.inl rfl⟩⟩
  · intro x
    simp only [List.mem_cons, List.not_mem_nil, or_false]
    omega
  · cases h; decide
  · cases h; decide

/-- The hypotheses are met by the cluster of the example; two waiting workers, one requested: one is left. -/
example : (((run cfgS (upTo 2)).find 0).map (fun c => decide (hbRaises c (beat 1 [] [] []) = false ∧
      ∀ w ∈ c.workers, w.waiting (beat 1 [] [] []) = true ∧ ¬ w.row.target.finished))) = some true ∧
    ((run cfgS (upTo 2 ++ [.op (.heartbeat 0 (beat 1 [] [] []) 3000)])).find 0).map (fun c =>
      c.workers.map (fun w => w.row.target)) = some [.stopped, .running] := by decide +kernel

/-! ### C30: every heartbeat is handled -/

/-- C30 does not hold: a heartbeat in which a running worker is not mentioned at all fails with an internal error;
nothing of what it reports is stored. -/
theorem C30_heartbeat_handled_violated : ∃ (cfg : Cfg) (evs : List Ev) (n : Nat) (m : Msg) (c : Cluster),
    (run cfg evs).find n = some c ∧ ¬ StopRequested c ∧ hbRaises c m = true ∧
    ∀ now, ∃ d, (run cfg (evs ++ [.op (.heartbeat n m now)])).find n = some d ∧ d.row = c.row ∧ d.workers = c.workers ∧
      m.count ≠ c.row.count := by
  have h : ((run cfgS running2).find 0).isSome = true ∧
      (((run cfgS running2).find 0).map (fun c => decide (hbRaises c (beat 1 [1] [] []) = true ∧ c.row.target = .running ∧
        c.row.count = 2))) = some true := by decide +kernel
  obtain ⟨h1, h2⟩ := h
  obtain ⟨c, hc⟩ := Option.isSome_iff_exists.1 h1
  rw [hc] at h2
  simp only [Option.map_some, Option.some.injEq, decide_eq_true_eq] at h2
  obtain ⟨hr, ht, hcount⟩ := h2
  refine ⟨cfgS, running2, 0, beat 1 [1] [] [], c, hc, by simp [StopRequested, JobStatus.finished, ht], hr, fun now => ?_⟩
  have e : run cfgS (running2 ++ [.op (.heartbeat 0 (beat 1 [1] [] []) now)]) =
      (run cfgS running2).step cfgS (.heartbeat 0 (beat 1 [1] [] []) now) := by simp [run, State.ev]
  rw [e, step_find (run_inv cfgS running2) rfl, hc]
  refine ⟨_, rfl, ?_⟩
  simp only [acts, hc, heartbeatActs, hr, if_true, List.append_nil]
  rw [if_neg (by rw [ht]; simp), onAll_cons, onAll_nil, volC_on _ _ _ rfl]
  exact ⟨rfl, rfl, by rw [hcount]; simp [beat]⟩

/-- C30, the part that holds: a heartbeat fails exactly if some worker that runs or closes is not mentioned in it.
Missing: such heartbeats (see `C30_heartbeat_handled_violated`). -/
theorem C30_heartbeat_handled_partial (c : Cluster) (m : Msg) :
    hbRaises c m = true ↔ ∃ w ∈ c.workers, (w.row.status = .running ∨ w.row.status = .closing) ∧ ¬ m.mentions w.row.name :=
  raises_iff c m

/-! ### C31: the start failure limit -/

open Classical in
/-- C31, the count. After every operation in every reachable state the number of failed starts the gateway holds
against a cluster is what it was plus the failures the operation reports, or zero if it reports that a worker
started. -/
theorem C31_failures_counted {cfg : Cfg} {evs : List Ev} {o : Op} {c d : Cluster} (hc : c ∈ (run cfg evs).clusters)
    (hd : d ∈ (run cfg (evs ++ [.op o])).clusters) (hn : d.row.name = c.row.name) :
    d.vol.failCount = if workerStarted c o then 0 else c.vol.failCount + startFailures (run cfg evs) c o := by
  have e : run cfg (evs ++ [.op o]) = (run cfg evs).step cfg o := by simp [run, State.ev]
  rw [e] at hd
  exact step_fails (run_inv cfg evs) hc hd hn

/-- C31, restart: the count is kept in memory only. -/
theorem C31_restart_forgets {cfg : Cfg} {evs : List Ev} {o : Op} {k : Nat} {now : Int} {d : Cluster}
    (hd : d ∈ (run cfg (evs ++ [.crash o k now])).clusters) : d.vol.failCount = 0 := by
  have e : run cfg (evs ++ [.crash o k now]) =
      ((run cfg evs).applyAll ((acts cfg (run cfg evs) o).take k)).restart now := by simp [run, State.ev]
  rw [e] at hd
  obtain ⟨x, -, rfl⟩ := List.mem_map.1 hd
  rfl

/-- C31, the limit. When a cluster that is asked to run, and has started, is reconciled, it is asked to fail, and
queued, if its failures have reached the limit; otherwise its target stays as it is. -/
theorem C31_limit {cfg : Cfg} {evs : List Ev} {now : Int} {c d : Cluster} (hc : c ∈ (run cfg evs).clusters)
    (hr : c.modelStatus = some .running) (hp : c.vol.pending = true) (hf : c.vol.fl = .idle)
    (hd : d ∈ (run cfg (evs ++ [.op (.getC c.row.name now)])).clusters) (hn : d.row.name = c.row.name) :
    (cfg.failLimit ≤ c.vol.failCount → d.row.target = .failed ∧ d.vol.pending = true) ∧
    (c.vol.failCount < cfg.failLimit → d.row.target = .running) := by
  have hi := run_inv cfg evs
  have I := hi.inv c hc
  have h33 : c.row.status.n = 3 ∧ c.row.target.n = 3 := by
    have := rank_eq I.1 hr
    have := I.1.tgt
    simp only [ClusterStatus.rank] at *
    repeat' split at *
    all_goals omega
  have hst := n_eq3.2 h33.1
  have htg := n_eq3.2 h33.2
  have e : run cfg (evs ++ [.op (.getC c.row.name now)]) = (run cfg evs).step cfg (.getC c.row.name now) := by
    simp [run, State.ev]
  rw [e, step_clusters hi rfl] at hd
  obtain ⟨x, hx, rfl⟩ := List.mem_map.1 hd
  rw [onAll_name] at hn
  have := cname_inj hi.named.nodup hx hc hn
  subst this
  have ea : acts cfg (run cfg evs) (.getC x.row.name now) =
      .volC x.row.name (fun v => { v with pending := false }) :: .volC x.row.name (proxied x.row.sched x.row.dash) ::
        checkScaleActs cfg (run cfg evs).next x now := by
    simp [acts, sfind_mem hi.named.nodup hx, hp, hf, reconcileClusterActs, hst, htg, JobStatus.n]
  rw [ea]
  constructor
  · intro hl
    simp only [checkScaleActs, if_pos hl]
    rw [onAll_cons, volC_on _ _ _ (by rfl), onAll_cons, volC_on _ _ _ (by rfl), onAll_cons, updC1_on _ _ _ (by rfl), onAll_cons,
      putC1_on _ _ (by rfl), onAll_nil]
    exact ⟨rfl, rfl⟩
  · intro hl
    simp only [checkScaleActs, if_neg (Nat.not_le.2 hl)]
    rw [onAll_cons, volC_on _ _ _ (by rfl), onAll_cons, volC_on _ _ _ (by rfl)]
    have key : ∀ (k next : Nat) (y : Cluster), (onAll y (createWorkers x.row.name next now k)).row = y.row := by
      intro k
      induction k with
      | zero => intro next y; rfl
      | succ k ih =>
        intro next y
        simp only [createWorkers, onAll_cons, ih]
        simp only [Act.onCluster, putWs]
        split <;> rfl
    rw [key]
    exact htg

/-- Three starts fail; the cluster is then failed. -/
def failing : List Ev :=
  upTo 1 ++ [.op (.getW 0 1 2000), .op (.endStartW 0 1 false), .op (.getW 0 1 2000), .op (.endStopW 0 1 2000),
    .op (.getC 0 2000), .op (.getW 0 2 2000), .op (.endStartW 0 2 false), .op (.getW 0 2 2000), .op (.endStopW 0 2 2000),
    .op (.getC 0 2000), .op (.getW 0 3 2000), .op (.endStartW 0 3 false), .op (.getW 0 3 2000), .op (.endStopW 0 3 2000)]

example : ((run cfgS failing).find 0).map (fun c => (c.modelStatus, c.vol.pending, c.vol.fl, c.vol.failCount)) =
      some (some .running, true, .idle, 3) ∧
    ((run cfgS (failing ++ [.op (.getC 0 2000)])).find 0).map (fun c => c.row.target) = some .failed := by decide +kernel

/-! ### C32: at most one scheduler start -/

/-- C32. The concrete backend's start call is made at most once per cluster in a history without crashes; with crashes,
never twice without a crash in between. -/
theorem C32_one_start {cfg : Cfg} {evs : List Ev} {c : Cluster}
    (hc : c ∈ (run cfg evs).clusters ∨ c ∈ (run cfg evs).purged) :
    ¬ DoubleStart c.vol.log ∧ (CrashFree evs → c.vol.log.count .startCluster ≤ 1) := by
  have hi := run_inv cfg evs
  have hp : CP cfg.bulk c := hc.elim (fun h => (hi.inv c h).1) (fun h => (hi.gone c h).cp)
  refine ⟨separated_spec hp.sep, fun hcf => count_start hp.sep ?_⟩
  have := crashFree_log (cfg := cfg) hcf (s := State.init) ⟨by simp [State.init], by simp [State.init]⟩
  rcases hc with h | h
  · exact this.1 c h
  · exact this.2 c h

/-- After a crash during the start the scheduler is started again; so the restriction to histories without crashes is
needed. -/
theorem C32_crash_restarts : ∃ (cfg : Cfg) (evs : List Ev) (c : Cluster), c ∈ (run cfg evs).clusters ∧
    c.vol.log.count .startCluster = 2 := by
  have h : ((run cfgB [.op (.startCluster "ann" none 0), .op (.getC 0 0), .crash (.endStartC 0 true) 0 10,
      .op (.getC 0 10)]).find 0).map (fun c => c.vol.log.count .startCluster) = some 2 := by decide +kernel
  revert h
  generalize hf : (run cfgB _).find 0 = r
  cases r with
  | none => simp
  | some c => exact fun h => ⟨cfgB, _, c, (sfind_spec hf).1, by simpa using h⟩

example : ((run cfgS stopped2).find 0).map (fun c => c.vol.log.count .startCluster) = some 1 := by decide +kernel

end Verif.Backend
