import Verif.Backend.Props
/-
C170: whoever waits for a cluster of a database backend to start does not wait for ever. The model is that of
`Verif.Backend.Model` (db_base.py:1035-1083 the timeout checks, 1193-1275 the reconciliation of clusters).
-/
set_option linter.unusedVariables false

namespace Verif.Backend

/-- What ends the waiting of a client: the cluster runs, or it has ended. -/
def Decided (c : Cluster) : Prop := c.modelStatus = some .running ∨ c.row.status.finished

/-- No piece of work of the cluster can be carried on. -/
def Idle (cfg : Cfg) (s : State) (n : Nat) : Prop :=
  ∀ o : Op, o.processing = true → o.cluster = some n → ¬ o.enabled cfg s

theorem no_work {cfg : Cfg} {s : State} (hs : SInv cfg s) {c : Cluster} (hc : c ∈ s.clusters) (hi : Idle cfg s c.row.name) :
    ¬ c.hasWork := by
  intro h
  obtain ⟨o, h1, h2, h3⟩ := work_enabled hs hc h
  exact hi o h1 h2 h3

theorem idle_of {cfg : Cfg} {s : State} {n : Nat} (h : (s.find n).map (fun c => decide (c.vol.pending = false ∧
    c.vol.fl = .idle ∧ c.workers = [])) = some true) : Idle cfg s n := by
  cases hf : s.find n with
  | none => rw [hf] at h; simp at h
  | some c =>
    rw [hf] at h
    simp only [Option.map_some, Option.some.injEq, decide_eq_true_eq] at h
    intro o hp hc he
    cases o <;> simp only [Op.cluster, Option.some.injEq, reduceCtorEq] at hc <;> subst hc <;> apply he <;>
      simp [acts, hf, h, Cluster.find]

/-- C170, start. A cluster that is shown as pending, and for which there is nothing left to do, has been handed to the
concrete backend: it is not forgotten before its start. -/
theorem C170_submitted {cfg : Cfg} {evs : List Ev} {c : Cluster} (hc : c ∈ (run cfg evs).clusters)
    (hp : c.modelStatus = some .pending) (hi : Idle cfg (run cfg evs) c.row.name) :
    c.row.status = .submitted ∧ c.row.target = .running := by
  have hs := run_inv cfg evs
  have hw := no_work hs hc hi
  obtain ⟨-, hv⟩ := hs.inv c hc
  have hS := hv.nwS
  simp only [Cluster.hasWork, not_or] at hw
  revert hp hS
  simp only [Cluster.modelStatus]
  generalize ha : c.row.status = a
  generalize hb : c.row.target = b
  intro hp hS
  cases a <;> cases b <;> simp [statusMap] at hp <;> simp [JobStatus.n] at hS ⊢
  refine absurd ?_ hw.1
  exact hS (Classical.not_not.1 hw.2.1)

theorem decided_of {bulk : Bool} {c : Cluster} (h : Inv bulk c) (h3 : 3 ≤ c.row.status.n)
    (hd : 5 ≤ c.row.target.n → 5 ≤ c.row.status.n) : Decided c := by
  have ht := h.1.tgt
  have hc := h.1.clo
  rw [Decided, finished_iff]
  revert hd h3 ht hc
  simp only [Cluster.modelStatus]
  generalize c.row.status = a
  generalize c.row.target = b
  intro h3 hd ht hc
  cases a <;> cases b <;> simp_all [statusMap, JobStatus.n]

/-- Work carried on never removes a cluster. -/
theorem still_there {cfg : Cfg} (ops : List Op) : ∀ {s : State}, SInv cfg s → (∀ o ∈ ops, o.processing = true) →
    ∀ {c : Cluster}, c ∈ s.clusters → ∃ d ∈ (ops.foldl (State.step cfg) s).clusters, d.row.name = c.row.name := by
  induction ops with
  | nil => exact fun _ _ c hc => ⟨c, hc, rfl⟩
  | cons o ops ih =>
    intro s hs ho c hc
    have hm : onAll c (acts cfg s o) ∈ (s.step cfg o).clusters := by
      rw [step_clusters hs (processing_plain (ho o List.mem_cons_self))]
      exact List.mem_map.2 ⟨c, hc, rfl⟩
    obtain ⟨d, hd, e⟩ := ih (step_inv hs o) (fun x hx => ho x (List.mem_cons_of_mem _ hx)) hm
    have hle := acts_le hs.named hs.inv o (processing_plain (ho o List.mem_cons_self)) hc (acts cfg s o).length
    rw [take_all] at hle
    exact ⟨d, hd, e.trans hle.name⟩

/-- C170, the part that holds. When the start timeout of a cluster has passed and nothing is left to do for it, the next
timeout check together with the work that it causes, carried on in whatever order, leads to a cluster that runs or has
ended. (That this work ends is `C20_stop_bounded`.) Missing: states in which the timeout checks fail, see
`C170_waits_violated`. -/
theorem C170_given_up_partial {cfg : Cfg} {evs : List Ev} {c : Cluster} (hc : c ∈ (run cfg evs).clusters)
    (hi : Idle cfg (run cfg evs) c.row.name)
    (hb : ∀ x ∈ (run cfg evs).clusters, ¬ StopRequested x → x.row.status = .running → x.vol.lastHb ≠ none)
    {now : Int} (hlate : (c.row.startTime : Rat) + 1000 * cfg.clusterStartTimeout < now)
    {ops : List Op} (ho : ∀ o ∈ ops, o.processing = true)
    (hq : Idle cfg (run cfg (evs ++ .op (.checkTimeouts now) :: ops.map .op)) c.row.name) :
    ∃ d ∈ (run cfg (evs ++ .op (.checkTimeouts now) :: ops.map .op)).clusters, d.row.name = c.row.name ∧ Decided d := by
  have hs := run_inv cfg evs
  have e : evs ++ .op (.checkTimeouts now) :: ops.map .op = (evs ++ [.op (.checkTimeouts now)]) ++ ops.map .op := by simp
  rw [e] at hq ⊢
  have hs1 := run_inv cfg (evs ++ [.op (.checkTimeouts now)])
  have hs2 := run_inv cfg (evs ++ [.op (.checkTimeouts now)] ++ ops.map .op)
  -- the cluster after the check
  have hm : afterTimeout cfg now c ∈ (run cfg (evs ++ [.op (.checkTimeouts now)])).clusters := by
    rw [C28_timeouts_partial cfg evs now hb]
    exact List.mem_map.2 ⟨c, hc, rfl⟩
  have hn : (afterTimeout cfg now c).row.name = c.row.name := by
    unfold afterTimeout; split <;> rfl
  -- and at the end
  obtain ⟨d, hd, dn⟩ : ∃ d ∈ (run cfg (evs ++ [.op (.checkTimeouts now)] ++ ops.map .op)).clusters,
      d.row.name = c.row.name := by
    rw [fold_ops]
    obtain ⟨d, h1, h2⟩ := still_there ops hs1 ho hm
    exact ⟨d, h1, h2.trans hn⟩
  have le := later_le hm hd (dn.trans hn.symm)
  refine ⟨d, hd, dn, ?_⟩
  have hI := hs2.inv d hd
  have hw : ¬ d.hasWork := no_work hs2 hd (by rw [dn]; exact hq)
  have fin : 5 ≤ d.row.target.n → 5 ≤ d.row.status.n := fun h =>
    Decidable.by_contra (fun h5 => hw (hasWork_of_unfinished hI h (by omega)))
  refine decided_of hI (Decidable.by_contra (fun h3 => ?_)) fin
  have hst : c.row.status.n < 3 := by
    have h1 : (afterTimeout cfg now c).row.status = c.row.status := by unfold afterTimeout; split <;> rfl
    have := le.st
    rw [h1] at this
    omega
  have hact : ¬ StopRequested c := by
    intro h
    have h1 : 5 ≤ (afterTimeout cfg now c).row.target.n := by
      unfold afterTimeout; split
      · exact (by decide : 5 ≤ JobStatus.failed.n)
      · exact finished_iff.1 h
    have := fin (le.tgt h1).1
    omega
  have hsub : c.row.status = .submitted := by
    have hp : c.modelStatus = some .pending := by
      have ht := (hs.inv c hc).1.tgt
      rw [StopRequested, finished_iff] at hact
      clear hI hw fin hq
      revert hst ht hact
      simp only [Cluster.modelStatus]
      generalize c.row.status = a
      generalize c.row.target = b
      intro h1 h2 h3
      cases a <;> cases b <;> first | rfl | (exfalso; simp [JobStatus.n] at h1 h2 h3)
    exact (C170_submitted hc hp hi).1
  have hL : ClusterLate cfg now c := ⟨hact, Or.inl ⟨hsub, hlate⟩⟩
  have ht : 5 ≤ (afterTimeout cfg now c).row.target.n := by
    unfold afterTimeout; rw [if_pos hL]; exact (by decide : 5 ≤ JobStatus.failed.n)
  have := fin (le.tgt ht).1
  omega

/-- A cluster that is submitted and never comes up. -/
def silent : List Ev := [.op (.startCluster "ann" none 0), .op (.getC 0 0), .op (.endStartC 0 true)]

/-- The work that the timeout check causes. -/
def givenUp : List Op := [.getC 0 60001, .getC 0 60002, .endStopC 0 60003]

/-- The timeout check finds the cluster, and it is stopped. -/
example : Idle cfgS (run cfgS silent) 0 ∧
    Idle cfgS (run cfgS (silent ++ .op (.checkTimeouts 60001) :: givenUp.map .op)) 0 ∧
    (run cfgS silent).clusters.all (fun c => decide (c.modelStatus = some .pending ∧ c.row.startTime = 0)) = true ∧
    (0 : Rat) + 1000 * cfgS.clusterStartTimeout < 60001 ∧
    ((run cfgS (silent ++ .op (.checkTimeouts 60001) :: givenUp.map .op)).find 0).map
      (fun c => c.modelStatus) = some (some .failed) :=
  ⟨idle_of (by decide +kernel), idle_of (by decide +kernel), by decide +kernel, by decide +kernel, by decide +kernel⟩

/-- Repeated timeout checks. -/
def checks (nows : List Int) : List Ev := nows.map (fun t => .op (.checkTimeouts t))

/-- `unheard`, and the second cluster is looked at after the restart. -/
def unheard1 : List Ev := unheard ++ [.op (.getC 1 2000)]

theorem unheard_raises (now : Int) : timeoutsRaise cfgB now (run cfgB unheard1) = true := by
  have ex : ∃ a ∈ (run cfgB unheard1).clusters, a.row.status = .running ∧ a.row.target = .running ∧ a.vol.lastHb = none := by
    have h : ((run cfgB unheard1).find 0).map
        (fun c => decide (c.row.status = .running ∧ c.row.target = .running ∧ c.vol.lastHb = none)) = some true := by
      decide +kernel
    cases hf : (run cfgB unheard1).find 0 with
    | none => rw [hf] at h; simp at h
    | some c =>
      rw [hf] at h
      exact ⟨c, (sfind_spec hf).1, by simpa using h⟩
  obtain ⟨a, ha, pa⟩ := ex
  refine List.any_eq_true.2 ⟨a, ha, ?_⟩
  simp [timeoutCluster, CRow.active, pa, JobStatus.n]

theorem unheard_checks (nows : List Int) : run cfgB (unheard1 ++ checks nows) = run cfgB unheard1 := by
  rw [run_append]
  induction nows with
  | nil => rfl
  | cons t l ih =>
    have : (run cfgB unheard1).ev cfgB (.op (.checkTimeouts t)) = run cfgB unheard1 := by
      simp only [State.ev, State.step, acts, timeoutActs, unheard_raises t, if_true]
      rfl
    simp only [checks, List.map_cons, List.foldl_cons] at ih ⊢
    rw [this]
    exact ih

/-- C170 does not hold: after a restart of the gateway, a cluster that it took over as running without ever hearing of
it makes every timeout check fail; as long as it is not heard of, another user's cluster that never came up stays pending,
however many checks are made and however late, and nothing is left to do for it. -/
theorem C170_waits_violated : ∃ (cfg : Cfg) (evs : List Ev) (n : Nat), ∀ nows : List Int,
    Idle cfg (run cfg (evs ++ checks nows)) n ∧
    ∃ c ∈ (run cfg (evs ++ checks nows)).clusters, c.row.name = n ∧ c.modelStatus = some .pending := by
  refine ⟨cfgB, unheard1, 1, fun nows => ?_⟩
  rw [unheard_checks]
  refine ⟨idle_of (by decide +kernel), ?_⟩
  have h : ((run cfgB unheard1).find 1).map (fun c => decide (c.modelStatus = some .pending)) = some true := by decide +kernel
  cases hf : (run cfgB unheard1).find 1 with
  | none => rw [hf] at h; simp at h
  | some c =>
    rw [hf] at h
    exact ⟨c, (sfind_spec hf).1, (sfind_spec hf).2, by simpa using h⟩

end Verif.Backend
