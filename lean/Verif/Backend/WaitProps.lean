import Verif.Backend.Props
/-
C94: requests that wait for a cluster. C95: the shutdown of the gateway. C96: what never changes about a
cluster.
-/
set_option linter.unusedVariables false
namespace Verif.Backend

/-! ### What is modelled -/

/-- db_base.py:915-919 `get_cluster` with `wait`: whether the wait for the cluster's `ready` flag is over, before
its 20 seconds are; `none` when there is no such cluster (911-913). -/
def State.waitOver (s : State) (n : Nat) : Option Bool := (s.find n).map (fun c => c.vol.ready)

/-- db_base.py:885-889 `cleanup`: the clusters whose shutdown is waited for. -/
def State.pendingShutdown (s : State) : List Nat :=
  (s.clusters.filter (fun c => decide (c.row.status.n < JobStatus.stopped.n))).map (fun c => c.row.name)

/-- db_base.py:890-893 `cleanup`: the wait is over when the `shutdown` flags of all these clusters are set. -/
def State.shutdownOver (s : State) (waited : List Nat) : Bool :=
  waited.all (fun n => ((s.find n).map (fun c => c.vol.shutdown)).getD false)

/-- The pieces of work that have an effect, in the course of the operations from `s` on. -/
def workAll (cfg : Cfg) : State → List Op → Nat
  | _, [] => 0
  | s, o :: ops => (if (acts cfg s o).isEmpty then 0 else 1) + workAll cfg (s.step cfg o) ops

/-- The sum of a measure over a list. -/
def total {α : Type} (f : α → Nat) : List α → Nat
  | [] => 0
  | a :: l => f a + total f l

/-! ### C94: requests that wait for a cluster -/

/-- C94. In every reachable state: a request that waits for a cluster goes on waiting while the cluster is
pending, and is answered when it is running, stopped or failed. -/
theorem C94_wait (cfg : Cfg) (evs : List Ev) {c : Cluster} (hc : c ∈ (run cfg evs).clusters) :
    (c.modelStatus = some .pending → (run cfg evs).waitOver c.row.name = some false) ∧
    (c.modelStatus = some .running ∨ c.modelStatus = some .stopped ∨ c.modelStatus = some .failed →
      (run cfg evs).waitOver c.row.name = some true) := by
  have hi := run_inv cfg evs
  obtain ⟨hp, hv⟩ := hi.inv c hc
  have e : (run cfg evs).waitOver c.row.name = some (decide (3 ≤ c.row.status.n)) := by
    rw [State.waitOver, sfind_mem hi.named.nodup hc, Option.map_some, hv.ready]
  rw [e]
  have h2 := hp.clo
  have h3 := hp.tgt
  unfold Cluster.modelStatus
  generalize c.row.status = s at *
  generalize c.row.target = t at *
  cases s <;> cases t <;> simp [statusMap] at *

/-- C94, clusters that stop before they run: whoever waits for one is answered too. Either the wait is over, or the
cluster itself is queued; when its reconciliation comes the wait is over. -/
theorem C94_wait_stopping (cfg : Cfg) (evs : List Ev) {c : Cluster} (hc : c ∈ (run cfg evs).clusters)
    (hs : StopRequested c) :
    (run cfg evs).waitOver c.row.name = some true ∨
    c.vol.pending = true ∧ ∀ now : Int, c.vol.fl = .idle →
      (run cfg (evs ++ [.op (.getC c.row.name now)])).waitOver c.row.name = some true := by
  have hi := run_inv cfg evs
  obtain ⟨hp, hv⟩ := hi.inv c hc
  have hf := sfind_mem hi.named.nodup hc
  have ht := finished_iff.1 hs
  by_cases h3 : 3 ≤ c.row.status.n
  · left
    rw [State.waitOver, hf, Option.map_some, hv.ready, decide_eq_true h3]
  · right
    have hpd := hv.nw1 ht (by omega)
    refine ⟨hpd, fun now hid => ?_⟩
    have hi' := run_inv cfg (evs ++ [.op (.getC c.row.name now)])
    have e : run cfg (evs ++ [.op (.getC c.row.name now)]) = (run cfg evs).step cfg (.getC c.row.name now) := by
      simp [run, State.ev]
    rw [e] at hi' ⊢
    have hsf := step_find hi (o := .getC c.row.name now) rfl c.row.name
    rw [hf, Option.map_some] at hsf
    have hm := (sfind_spec hsf).1
    rw [State.waitOver, hsf, Option.map_some]
    have last (l : List Act) : (onAll c (l ++ [.volC c.row.name (fun v => { v with ready := true })])).vol.ready = true := by
      rw [onAll_append, onAll_cons, onAll_nil, volC_on _ _ _ (onAll_name _ _)]
    simp only [acts, hf]
    rw [if_pos ⟨hpd, hid⟩, reconcileClusterActs, if_neg (show ¬ JobStatus.stopped.n ≤ c.row.status.n from fun e => h3 (Nat.le_trans (by decide) e)),
      if_pos (show c.row.target = .stopped ∨ c.row.target = .failed from hs),
      if_neg (fun e => by rw [e] at h3; exact h3 (by decide)), toClosingActs, ← List.cons_append]
    exact congrArg some (last _)

example : ((run cfgS [.op (.startCluster "ann" none 0)]).waitOver 0, (run cfgS running2).waitOver 0,
    (run cfgS [.op (.startCluster "ann" none 0), .op (.stopCluster 0 false)]).waitOver 0,
    (run cfgS [.op (.startCluster "ann" none 0), .op (.stopCluster 0 false), .op (.getC 0 0)]).waitOver 0) =
    (some false, some true, some false, some true) := by decide +kernel

/-! ### C95: the shutdown of the gateway -/

theorem total_map_le {α : Type} {f : α → Nat} {g : α → α} : ∀ {l : List α}, (∀ a ∈ l, f (g a) ≤ f a) →
    total f (l.map g) ≤ total f l
  | [], _ => Nat.le_refl _
  | a :: l, h => by
    have h1 := h a (by simp)
    have h2 := total_map_le (f := f) (g := g) (l := l) (fun b hb => h b (by simp [hb]))
    simp only [List.map_cons, total]; omega

theorem total_map_lt {α : Type} {f : α → Nat} {g : α → α} : ∀ {l : List α} {b : α}, (∀ a ∈ l, f (g a) ≤ f a) → b ∈ l →
    f (g b) < f b → total f (l.map g) < total f l
  | [], _, _, hb, _ => nomatch hb
  | a :: l, b, h, hb, hlt => by
    have h1 := h a (by simp)
    have h2 := total_map_le (f := f) (g := g) (l := l) (fun b hb => h b (by simp [hb]))
    simp only [List.map_cons, total]
    rcases List.mem_cons.1 hb with rfl | hb
    · omega
    · have h3 := total_map_lt (f := f) (g := g) (fun b hb => h b (by simp [hb])) hb hlt
      omega

theorem total_le {α : Type} {f g : α → Nat} : ∀ {l : List α}, (∀ a ∈ l, f a ≤ g a) → total f l ≤ total g l
  | [], _ => Nat.le_refl _
  | a :: l, h => by
    have h1 := h a (by simp)
    have h2 := total_le (l := l) (f := f) (g := g) (fun b hb => h b (by simp [hb]))
    simp only [total]; omega

theorem acts_find {cfg : Cfg} {s : State} {o : Op} (ho : o.processing = true) (he : acts cfg s o ≠ []) :
    ∃ n c, o.cluster = some n ∧ s.find n = some c := by
  cases o with
  | getC n now | getW n w now | endStartC n ok | endStopC n now | endStartW n w ok | endStopW n w now =>
    refine ⟨n, ?_⟩
    cases hf : s.find n with
    | none => simp [acts, hf] at he
    | some c => exact ⟨c, rfl, rfl⟩
  | _ => simp [Op.processing] at ho

/-- Every cluster is asked to stop. -/
def AllStop (s : State) : Prop := ∀ c ∈ s.clusters, StopRequested c

theorem shutdown_allStop (cfg : Cfg) (evs : List Ev) : AllStop (run cfg (evs ++ [.op .shutdown])) := by
  have hi := run_inv cfg evs
  have e : run cfg (evs ++ [.op .shutdown]) = (run cfg evs).step cfg .shutdown := by simp [run, State.ev]
  intro d hd
  rw [e, step_clusters hi (o := .shutdown) rfl] at hd
  obtain ⟨c, hc, rfl⟩ := List.mem_map.1 hd
  rw [StopRequested, finished_iff]
  simp only [acts, shutdownActs]
  by_cases ha : c.row.active = true
  · have hm : c.row.name ∈ ((run cfg evs).clusters.filter (fun c => c.row.active)).map (fun c => c.row.name) :=
      List.mem_map.2 ⟨c, List.mem_filter.2 ⟨hc, ha⟩, rfl⟩
    simp [onAll, Act.onCluster, hm, CUpd.app]
  · have ht : 5 ≤ c.row.target.n := by
      simp only [CRow.active, decide_eq_true_eq] at ha
      exact Nat.le_of_not_lt ha
    have hle := acts_le hi.named hi.inv .shutdown rfl hc (acts cfg (run cfg evs) .shutdown).length
    rw [take_all] at hle
    exact (hle.tgt ht).1

theorem allStop_step {cfg : Cfg} {s : State} (hi : SInv cfg s) (ha : AllStop s) {o : Op} (ho : o.processing = true) :
    AllStop (s.step cfg o) ∧
    total M (s.step cfg o).clusters + (if (acts cfg s o).isEmpty then 0 else 1) ≤ total M s.clusters := by
  rw [AllStop, step_clusters hi (processing_plain ho)]
  have le1 (c : Cluster) (hc : c ∈ s.clusters) : M (onAll c (acts cfg s o)) ≤ M c := by
    by_cases hcl : o.cluster = some c.row.name
    · by_cases he : acts cfg s o = []
      · rw [he, onAll_nil]; exact Nat.le_refl _
      · exact Nat.le_of_lt (work_dec hi hc (finished_iff.1 (ha c hc)) hcl he)
    · rw [other_same ho hcl]; exact Nat.le_refl _
  constructor
  · intro d hd
    obtain ⟨c, hc, rfl⟩ := List.mem_map.1 hd
    have hle := acts_le hi.named hi.inv o (processing_plain ho) hc (acts cfg s o).length
    rw [take_all] at hle
    exact finished_iff.2 (hle.tgt (finished_iff.1 (ha c hc))).1
  · by_cases he : acts cfg s o = []
    · rw [if_pos (by rw [he]; rfl)]
      exact total_map_le le1
    · rw [if_neg (by simpa using he)]
      obtain ⟨n, c, hcl, hf⟩ := acts_find ho he
      obtain ⟨hc, rfl⟩ := sfind_spec hf
      exact total_map_lt le1 hc (work_dec hi hc (finished_iff.1 (ha c hc)) hcl he)

theorem allStop_fold {cfg : Cfg} (ops : List Op) : ∀ {s : State}, SInv cfg s → AllStop s →
    (∀ o ∈ ops, o.processing = true) →
    AllStop (ops.foldl (State.step cfg) s) ∧ workAll cfg s ops ≤ total M s.clusters ∧
    (ops.foldl (State.step cfg) s).clusters.map (fun c => c.row.name) = s.clusters.map (fun c => c.row.name) := by
  induction ops with
  | nil => exact fun hi ha _ => ⟨ha, Nat.zero_le _, rfl⟩
  | cons o ops ih =>
    intro s hi ha ho
    obtain ⟨h1, h2⟩ := allStop_step hi ha (ho o (by simp))
    obtain ⟨h3, h4, h5⟩ := ih (step_inv hi o) h1 (fun x hx => ho x (by simp [hx]))
    refine ⟨h3, ?_, h5.trans ?_⟩
    · simp only [workAll]; omega
    · rw [step_clusters hi (processing_plain (ho o (by simp))), List.map_map]
      exact List.map_congr_left (fun c _ => onAll_name _ _)

/-- C95. When the gateway, on its shutdown, has asked its clusters to stop and, after work was carried on in whatever
order, sees that the wait for them is over, then every cluster it knows is stopped or failed, all its workers are
finished, its scheduler was stopped after its last start, and it has no route; and without earlier crashes no started
worker is left running. -/
theorem C95_shutdown_complete (cfg : Cfg) (evs : List Ev) (ops : List Op) (ho : ∀ o ∈ ops, o.processing = true)
    (hw : (run cfg (evs ++ [.op .shutdown] ++ ops.map .op)).shutdownOver
      (run cfg (evs ++ [.op .shutdown])).pendingShutdown = true) :
    ∀ c ∈ (run cfg (evs ++ [.op .shutdown] ++ ops.map .op)).clusters,
      c.row.status.finished ∧ (∀ w ∈ c.workers, w.row.status.finished) ∧ StoppedSinceStart c.vol.log ∧
      c.vol.sniRoute = none ∧ c.vol.pathRoute = none ∧
      (CrashFree evs → ∀ x, ¬ Leaked cfg.bulk x c.vol.log) := by
  intro d hd
  have hi := run_inv cfg (evs ++ [.op .shutdown])
  have hi' := run_inv cfg (evs ++ [.op .shutdown] ++ ops.map .op)
  have hnm := (allStop_fold ops hi (shutdown_allStop cfg evs) ho).2.2
  rw [← fold_ops] at hnm
  obtain ⟨c, hc, hn⟩ : ∃ c ∈ (run cfg (evs ++ [.op .shutdown])).clusters, c.row.name = d.row.name := by
    have : d.row.name ∈ (run cfg (evs ++ [.op .shutdown])).clusters.map (fun c => c.row.name) := by
      rw [← hnm]; exact List.mem_map.2 ⟨d, hd, rfl⟩
    exact List.mem_map.1 this
  have l := later_le hc hd hn.symm
  have hfin : 5 ≤ d.row.status.n := by
    by_cases h5 : 5 ≤ c.row.status.n
    · exact Nat.le_trans h5 l.st
    · have hm : c.row.name ∈ (run cfg (evs ++ [.op .shutdown])).pendingShutdown :=
        List.mem_map.2 ⟨c, List.mem_filter.2 ⟨hc, decide_eq_true (Nat.lt_of_not_le h5)⟩, rfl⟩
      have := List.all_eq_true.1 hw _ hm
      rw [hn, sfind_mem hi'.named.nodup hd, Option.map_some, Option.getD_some, (hi'.inv d hd).2.shut,
        decide_eq_true_eq] at this
      exact this
  have hfd := finished_iff.2 hfin
  obtain ⟨h1, h2⟩ := C23_finished_after_workers (Or.inl hd) hfd
  have hv := (hi'.inv d hd).2
  refine ⟨hfd, h2, h1, ?_, ?_, fun hcf x hl => ?_⟩
  · cases e : d.vol.sniRoute with
    | none => rfl
    | some a => have := (hv.rt1 a e).1; omega
  · cases e : d.vol.pathRoute with
    | none => rfl
    | some a => have := (hv.rt2 a e).1; omega
  · obtain ⟨w, hw, rfl⟩ := C24_started_are_known (Or.inl hd) hl
    refine (C24_no_leak_partial (Or.inl hd) hw (h2 w hw)).2 (fun e he => ?_) hl
    rcases List.mem_append.1 he with he | he
    · rcases List.mem_append.1 he with he | he
      · exact hcf e he
      · rw [List.mem_singleton] at he; exact ⟨_, he⟩
    · obtain ⟨o, -, rfl⟩ := List.mem_map.1 he
      exact ⟨o, rfl⟩

/-- C95, the end. After the clusters were asked to stop, whatever the order in which work is carried on, at most
`6 + 13 k` pieces of it are done for each cluster with `k` workers, all clusters taken together; and when no piece is
left the wait is over. So the shutdown ends. -/
theorem C95_shutdown_ends (cfg : Cfg) (evs : List Ev) (ops : List Op) (ho : ∀ o ∈ ops, o.processing = true) :
    workAll cfg (run cfg (evs ++ [.op .shutdown])) ops ≤
      total (fun c => 6 + 13 * c.workers.length) (run cfg (evs ++ [.op .shutdown])).clusters ∧
    ((∀ o : Op, o.processing = true → ¬ o.enabled cfg (run cfg (evs ++ [.op .shutdown] ++ ops.map .op))) →
      (run cfg (evs ++ [.op .shutdown] ++ ops.map .op)).shutdownOver
        (run cfg (evs ++ [.op .shutdown])).pendingShutdown = true) := by
  have hi := run_inv cfg (evs ++ [.op .shutdown])
  have hi' := run_inv cfg (evs ++ [.op .shutdown] ++ ops.map .op)
  obtain ⟨h1, h2, h3⟩ := allStop_fold ops hi (shutdown_allStop cfg evs) ho
  refine ⟨Nat.le_trans h2 (total_le (fun c hc => M_le (hi.inv c hc))), fun hq => ?_⟩
  rw [← fold_ops] at h1 h3
  refine List.all_eq_true.2 (fun n hn => ?_)
  obtain ⟨c, hc, rfl⟩ := List.mem_map.1 hn
  have : c.row.name ∈ (run cfg (evs ++ [.op .shutdown] ++ ops.map .op)).clusters.map (fun c => c.row.name) := by
    rw [h3]; exact List.mem_map.2 ⟨c, (List.mem_filter.1 hc).1, rfl⟩
  obtain ⟨d, hd, e⟩ := List.mem_map.1 this
  rw [← e, sfind_mem hi'.named.nodup hd, Option.map_some, Option.getD_some, (hi'.inv d hd).2.shut, decide_eq_true_eq]
  refine Decidable.by_contra (fun h5 => ?_)
  obtain ⟨o, ho, -, he⟩ := work_enabled hi' hd
    (hasWork_of_unfinished (hi'.inv d hd) (finished_iff.1 (h1 d hd)) (by omega))
  exact hq o ho he

/-- The gateway is shut down while two workers run, and all the work is done. -/
def shutdownOps : List Op :=
  [.getC 0 4000, .getW 0 1 4000, .getW 0 2 4000, .endStopW 0 1 4000, .endStopW 0 2 4000, .getC 0 4000, .endStopC 0 4500]

example : (∀ o ∈ shutdownOps, o.processing = true) ∧
    (run cfgS (running2 ++ [.op .shutdown])).pendingShutdown = [0] ∧
    (run cfgS (running2 ++ [.op .shutdown])).shutdownOver [0] = false ∧
    (run cfgS (running2 ++ [.op .shutdown] ++ shutdownOps.map .op)).shutdownOver [0] = true ∧
    workAll cfgS (run cfgS (running2 ++ [.op .shutdown])) shutdownOps = 7 ∧
    seen (run cfgS (running2 ++ [.op .shutdown] ++ shutdownOps.map .op)) 0 = some (some .failed, [.stopped, .stopped]) := by
  refine ⟨by decide, by decide +kernel, by decide +kernel, by decide +kernel, by decide +kernel, by decide +kernel⟩

/-! ### C96: what never changes about a cluster -/

/-- C96. The owner, the worker limit and the start time of a cluster are the same ever after, and a finished worker
stays finished; no worker is ever forgotten while its cluster is known. -/
theorem C96_identity {cfg : Cfg} {evs evs' : List Ev} {c d : Cluster} (hc : c ∈ (run cfg evs).clusters)
    (hd : d ∈ (run cfg (evs ++ evs')).clusters) (hn : d.row.name = c.row.name) :
    d.row.user = c.row.user ∧ d.row.maxWorkers = c.row.maxWorkers ∧ d.row.startTime = c.row.startTime ∧
    ∀ w ∈ c.workers, ∃ x ∈ d.workers, x.row.name = w.row.name ∧ (w.row.status.finished → x.row.status.finished) := by
  have l := later_le hc hd hn
  refine ⟨l.user, l.mx, l.sti, fun w hw => ?_⟩
  obtain ⟨x, hx, h⟩ := l.ws w hw
  exact ⟨x, hx, h.name, fun e => finished_iff.2 (h.fin (finished_iff.1 e))⟩

example : ((run cfgS stopped2).find 0).map (fun c => (c.row.user, c.row.maxWorkers, c.row.startTime)) =
    some ("ann", some 3, 1000) := by decide +kernel

end Verif.Backend
