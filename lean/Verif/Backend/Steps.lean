import Verif.Backend.Queries
/-
What single operations do, for the properties about them.
-/
set_option linter.unusedSimpArgs false
set_option linter.unusedVariables false
namespace Verif.Backend

/-- The clusters after an operation that neither creates nor removes clusters. -/
theorem step_clusters {cfg : Cfg} {s : State} (h : SInv cfg s) {o : Op} (ho : o.plain = true) :
    (s.step cfg o).clusters = s.clusters.map (fun c => onAll c (acts cfg s o)) := by
  have hp := (prefix_sp h o (acts cfg s o).length).2 ho
  rw [take_all] at hp
  exact (applyAll_plain s _ hp).1

theorem find_map {s : State} {f : Cluster → Cluster} (hf : ∀ c, (f c).row.name = c.row.name) (n : Nat) :
    (s.clusters.map f).find? (fun c => decide (c.row.name = n)) = (s.find n).map f := by
  simp only [State.find, List.find?_map]
  congr 2
  funext c
  simp [hf]

theorem step_find {cfg : Cfg} {s : State} (h : SInv cfg s) {o : Op} (ho : o.plain = true) (n : Nat) :
    (s.step cfg o).find n = (s.find n).map (fun c => onAll c (acts cfg s o)) := by
  have := find_map (s := s) (f := fun c => onAll c (acts cfg s o)) (fun c => onAll_name _ _) n
  rw [← this, ← step_clusters h ho]
  rfl

/-! ### How a stop completes -/

theorem processing_plain {o : Op} (h : o.processing = true) : o.plain = true := by
  cases o <;> simp_all [Op.processing, Op.plain]

theorem other_same {cfg : Cfg} {s : State} {o : Op} (ho : o.processing = true) {c : Cluster}
    (hn : o.cluster ≠ some c.row.name) : onAll c (acts cfg s o) = c := by
  have loc {n : Nat} {l : List Act} (hl : Local n l) (hx : n ≠ c.row.name) : onAll c l = c :=
    onAll_id (fun a ha => (hl a ha).2 c (fun e => hx e.symm))
  cases o with
  | getC n now =>
    simp only [Op.cluster, ne_eq, Option.some.injEq] at hn
    simp only [acts]
    split
    · rfl
    · rename_i d hd
      obtain ⟨-, rfl⟩ := sfind_spec hd
      split
      · exact loc (.cons (about_volC _ _) (reconcileC_local _ _ _ _)) hn
      · rfl
  | getW n w now =>
    simp only [Op.cluster, ne_eq, Option.some.injEq] at hn
    simp only [acts]
    split
    · rfl
    · rename_i d hd
      obtain ⟨-, rfl⟩ := sfind_spec hd
      split
      · rfl
      · split
        · exact loc (.cons (about_volW _ _ _) (reconcileW_local _ _ _ _)) hn
        · rfl
  | endStartC n ok =>
    simp only [Op.cluster, ne_eq, Option.some.injEq] at hn
    simp only [acts]
    split
    · rfl
    · split
      · exact loc (endStartC_local _ _) hn
      · rfl
  | endStopC n now =>
    simp only [Op.cluster, ne_eq, Option.some.injEq] at hn
    simp only [acts]
    split
    · rfl
    · rename_i d hd
      obtain ⟨-, rfl⟩ := sfind_spec hd
      split
      · exact loc (endStopC_local _ _) hn
      · rfl
  | endStartW n w ok =>
    simp only [Op.cluster, ne_eq, Option.some.injEq] at hn
    simp only [acts]
    split
    · rfl
    · split
      · rfl
      · split
        · exact loc (endStartW_local _ _ _) hn
        · rfl
  | endStopW n w now =>
    simp only [Op.cluster, ne_eq, Option.some.injEq] at hn
    simp only [acts]
    split
    · rfl
    · rename_i d hd
      obtain ⟨-, rfl⟩ := sfind_spec hd
      split
      · rfl
      · split
        · exact loc (endStopW_local _ _ _ _) hn
        · rfl
  | _ => simp [Op.processing] at ho

/-- The state after some operations. -/
theorem fold_ops (cfg : Cfg) (evs : List Ev) (ops : List Op) :
    run cfg (evs ++ ops.map .op) = ops.foldl (State.step cfg) (run cfg evs) := by
  rw [run_append, List.foldl_map]
  rfl

theorem work_bound {cfg : Cfg} (ops : List Op) : ∀ {s : State}, SInv cfg s → (∀ o ∈ ops, o.processing = true) →
    ∀ {c : Cluster}, c ∈ s.clusters → 5 ≤ c.row.target.n →
    ∃ d ∈ (ops.foldl (State.step cfg) s).clusters, Le c d ∧ workDone cfg c.row.name s ops + M d ≤ M c := by
  induction ops with
  | nil => exact fun hs _ c hc ht => ⟨c, hc, .refl c, by simp [workDone]⟩
  | cons o ops ih =>
    intro s hs ho c hc ht
    have hp := ho o (by simp)
    have hm : onAll c (acts cfg s o) ∈ (s.step cfg o).clusters := by
      rw [step_clusters hs (processing_plain hp)]
      exact List.mem_map.2 ⟨c, hc, rfl⟩
    have hle : Le c (onAll c (acts cfg s o)) := by
      have := acts_le hs.named hs.inv o (processing_plain hp) hc (acts cfg s o).length
      rwa [take_all] at this
    obtain ⟨d, hd, l, hM⟩ := ih (step_inv hs o) (fun x hx => ho x (by simp [hx])) hm (hle.tgt ht).1
    refine ⟨d, hd, hle.trans l, ?_⟩
    rw [hle.name] at hM
    simp only [workDone]
    by_cases hcl : o.cluster = some c.row.name
    · cases he : (acts cfg s o).isEmpty
      · rw [if_pos ⟨hcl, rfl⟩]
        have := work_dec hs hc ht hcl (by simpa using he)
        omega
      · rw [if_neg (by simp)]
        have : acts cfg s o = [] := by simpa using he
        rw [this] at hM
        simp only [onAll_nil] at hM
        omega
    · rw [if_neg (fun e => hcl e.1)]
      rw [other_same hp hcl] at hM
      omega

theorem hasWork_of_unfinished {bulk : Bool} {c : Cluster} (h : Inv bulk c) (ht : 5 ≤ c.row.target.n) (h5 : c.row.status.n < 5) :
    c.hasWork := by
  obtain ⟨hp, hv⟩ := h
  by_cases h4 : c.row.status.n < 4
  · exact Or.inl (hv.nw1 ht h4)
  · have h4 : c.row.status.n = 4 := by omega
    by_cases hr : c.readyToClose bulk = true
    · rcases hv.nw2 h4 hr with h | h
      · exact Or.inl h
      · exact Or.inr (Or.inl (by rw [h]; simp))
    · right; right
      have hc := n_eq4.2 h4
      simp only [Cluster.readyToClose, hc, decide_true, Bool.true_and, Bool.or_eq_true, Bool.and_eq_true, not_or, not_and] at hr
      obtain ⟨h1, h2⟩ := hr
      cases bulk with
      | true =>
        have h1 := h1 rfl
        simp only [Cluster.allAtLeast, List.all_eq_true, decide_eq_true_eq, Classical.not_forall] at h1
        obtain ⟨w, hw, hs⟩ := h1
        have hs : w.row.status.n < 4 := Nat.lt_of_not_le hs
        have ht := (hp.ws w hw).ccl h4
        simp [closeTarget] at ht
        refine ⟨w, hw, by rw [finished_iff]; omega, ?_⟩
        by_cases ht4 : w.row.target.n = 4
        · exact Or.inl ((hv.ws w hw).nw4 ht4 hs)
        · rcases (hv.ws w hw).nw3 (by omega) (by omega) with h | h
          · exact Or.inl h
          · exact Or.inr (by rw [h]; simp)
      | false =>
        simp only [Cluster.allAtLeast, List.all_eq_true, decide_eq_true_eq, Classical.not_forall] at h2
        obtain ⟨w, hw, hs⟩ := h2
        have hs : w.row.status.n < 5 := Nat.lt_of_not_le hs
        have ht := (hp.ws w hw).ccl h4
        simp [closeTarget] at ht
        refine ⟨w, hw, by rw [finished_iff]; omega, ?_⟩
        rcases (hv.ws w hw).nw3 (by omega) (by omega) with h | h
        · exact Or.inl h
        · exact Or.inr (by rw [h]; simp)

theorem wfind_mem {c : Cluster} (h : (names c.workers).Nodup) {w : Worker} (hw : w ∈ c.workers) : c.find w.row.name = some w := by
  cases hf : c.find w.row.name with
  | none =>
    simp only [Cluster.find, List.find?_eq_none, decide_eq_true_eq] at hf
    exact (hf w hw rfl).elim
  | some x =>
    obtain ⟨hx, e⟩ := find_spec hf
    rw [name_inj h hx hw e]

theorem work_enabled {cfg : Cfg} {s : State} (hs : SInv cfg s) {c : Cluster} (hc : c ∈ s.clusters) (h : c.hasWork) :
    ∃ o : Op, o.processing = true ∧ o.cluster = some c.row.name ∧ o.enabled cfg s := by
  have hf := sfind_mem hs.named.nodup hc
  have busy (hb : c.vol.fl ≠ .idle) : ∃ o : Op, o.processing = true ∧ o.cluster = some c.row.name ∧ o.enabled cfg s := by
    cases hfl : c.vol.fl with
    | idle => exact (hb hfl).elim
    | starting => exact ⟨.endStartC c.row.name true, rfl, rfl, by simp [Op.enabled, acts, hf, hfl, endStartClusterActs]⟩
    | stopping => exact ⟨.endStopC c.row.name 0, rfl, rfl, by simp [Op.enabled, acts, hf, hfl, endStopClusterActs]⟩
  rcases h with h | h | ⟨w, hw, -, h⟩
  · by_cases hi : c.vol.fl = .idle
    · exact ⟨.getC c.row.name 0, rfl, rfl, by simp [Op.enabled, acts, hf, h, hi]⟩
    · exact busy hi
  · exact busy h
  · have hg := wfind_mem (hs.inv c hc).1.nodup hw
    have busyW (hb : w.vol.fl ≠ .idle) : ∃ o : Op, o.processing = true ∧ o.cluster = some c.row.name ∧ o.enabled cfg s := by
      cases hfl : w.vol.fl with
      | idle => exact (hb hfl).elim
      | starting =>
        exact ⟨.endStartW c.row.name w.row.name true, rfl, rfl, by simp [Op.enabled, acts, hf, hg, hfl, endStartWorkerActs]⟩
      | stopping =>
        exact ⟨.endStopW c.row.name w.row.name 0, rfl, rfl, by simp [Op.enabled, acts, hf, hg, hfl, endStopWorkerActs]⟩
    rcases h with h | h
    · by_cases hi : w.vol.fl = .idle
      · exact ⟨.getW c.row.name w.row.name 0, rfl, rfl, by simp [Op.enabled, acts, hf, hg, h, hi]⟩
      · exact busyW hi
    · exact busyW h

/-- There is a way to the end. -/
theorem reach_end {cfg : Cfg} (k : Nat) : ∀ {s : State}, SInv cfg s → ∀ {c : Cluster}, c ∈ s.clusters → 5 ≤ c.row.target.n → M c ≤ k →
    ∃ ops : List Op, (∀ o ∈ ops, o.processing = true) ∧ ops.length ≤ k ∧
      ∃ d ∈ (ops.foldl (State.step cfg) s).clusters, Le c d ∧ 5 ≤ d.row.status.n := by
  induction k with
  | zero =>
    intro s hs c hc ht hM
    refine ⟨[], by simp, by simp, c, hc, .refl c, ?_⟩
    refine Decidable.by_contra (fun h5 => ?_)
    obtain ⟨o, ho, hcl, he⟩ := work_enabled hs hc (hasWork_of_unfinished (hs.inv c hc) ht (by omega))
    have := work_dec hs hc ht hcl he
    omega
  | succ k ih =>
    intro s hs c hc ht hM
    by_cases h5 : 5 ≤ c.row.status.n
    · exact ⟨[], by simp, by simp, c, hc, .refl c, h5⟩
    · obtain ⟨o, ho, hcl, he⟩ := work_enabled hs hc (hasWork_of_unfinished (hs.inv c hc) ht (by omega))
      have hd := work_dec hs hc ht hcl he
      have hm : onAll c (acts cfg s o) ∈ (s.step cfg o).clusters := by
        rw [step_clusters hs (processing_plain ho)]
        exact List.mem_map.2 ⟨c, hc, rfl⟩
      have hle : Le c (onAll c (acts cfg s o)) := by
        have := acts_le hs.named hs.inv o (processing_plain ho) hc (acts cfg s o).length
        rwa [take_all] at this
      obtain ⟨ops, h1, h2, d, hd', l, hf⟩ := ih (step_inv hs o) hm (hle.tgt ht).1 (by omega)
      refine ⟨o :: ops, ?_, by simp; omega, d, hd', hle.trans l, hf⟩
      intro x hx
      rcases List.mem_cons.1 hx with rfl | hx
      · exact ho
      · exact h1 x hx

/-! ### Timeouts -/

theorem before_iff (x now : Int) (t : Rat) : before x now t = true ↔ (x : Rat) + 1000 * t < now := by
  simp only [before, decide_eq_true_eq]
  constructor <;> intro h <;> grind

theorem active_iff {bulk : Bool} {c : Cluster} : c.row.active = true ↔ ¬ StopRequested c := by
  simp only [StopRequested, finished_iff]
  exact ⟨fun h => Nat.not_le.2 (of_decide_eq_true h), fun h => decide_eq_true (Nat.not_le.1 h)⟩

theorem timeoutCluster_fail {cfg : Cfg} {now : Int} {c : Cluster} : timeoutCluster cfg now c = .fail ↔ ClusterLate cfg now c := by
  simp only [timeoutCluster, ClusterLate, ← active_iff (bulk := true)]
  cases ha : c.row.active
  · simp
  · simp only [Bool.not_true, Bool.false_eq_true, if_false, true_and]
    by_cases h2 : c.row.status = .submitted
    · rw [if_pos h2]
      simp only [h2, true_and, reduceCtorEq, false_and, or_false, ← before_iff]
      cases before c.row.startTime now cfg.clusterStartTimeout <;> simp
    · rw [if_neg h2]
      by_cases h3 : c.row.status = .running
      · rw [if_pos h3]
        simp only [h2, h3, false_and, false_or, true_and, reduceCtorEq]
        cases hl : c.vol.lastHb with
        | none => simp
        | some h =>
          simp only [Option.some.injEq, exists_eq_left', ← before_iff]
          cases before h now cfg.heartbeatTimeout <;> simp
      · rw [if_neg h3]
        simp [h2, h3]

theorem timeoutCluster_keep {cfg : Cfg} {now : Int} {c : Cluster} (h : timeoutCluster cfg now c ≠ .raise) :
    timeoutCluster cfg now c = .keep ↔ ¬ ClusterLate cfg now c := by
  rw [← timeoutCluster_fail]
  cases ht : timeoutCluster cfg now c <;> simp_all

theorem timeoutWorker_iff {cfg : Cfg} {now : Int} {c : Cluster} {w : Worker} (h : timeoutCluster cfg now c ≠ .raise) :
    timeoutWorker cfg now c w.row = true ↔ WorkerLate cfg now c w := by
  simp only [timeoutWorker, WorkerLate, Bool.and_eq_true, decide_eq_true_eq, before_iff, timeoutCluster_keep h,
    active_iff (bulk := true)]
  constructor
  · rintro ⟨⟨⟨⟨⟨a, b⟩, c⟩, d⟩, e⟩, f⟩; exact ⟨a, b, c, d, e, f⟩
  · rintro ⟨a, b, c, d, e, f⟩; exact ⟨⟨⟨⟨⟨a, b⟩, c⟩, d⟩, e⟩, f⟩

theorem timeout_step {cfg : Cfg} {s : State} (hs : SInv cfg s) {now : Int} (hr : timeoutsRaise cfg now s = false) :
    (s.step cfg (.checkTimeouts now)).clusters = s.clusters.map (afterTimeout cfg now) := by
  rw [step_clusters hs rfl]
  refine List.map_congr_left (fun c hc => ?_)
  have nr : timeoutCluster cfg now c ≠ .raise := by
    intro e
    simp only [timeoutsRaise, List.any_eq_false, decide_eq_true_eq] at hr
    exact hr c hc e
  simp only [acts, timeoutActs, hr, Bool.false_eq_true, if_false]
  have mem : c.row.name ∈ (s.clusters.filter (fun c => timeoutCluster cfg now c = .fail)).map (fun c => c.row.name) ↔
      ClusterLate cfg now c := by
    rw [← timeoutCluster_fail]
    constructor
    · intro h
      obtain ⟨d, hd, e⟩ := List.mem_map.1 h
      obtain ⟨hd, hf⟩ := List.mem_filter.1 hd
      rw [cname_inj hs.named.nodup hd hc e] at hf
      simpa using hf
    · intro h
      exact List.mem_map.2 ⟨c, List.mem_filter.2 ⟨hc, by simpa using h⟩, rfl⟩
  have late (w : Worker) (hw : w ∈ c.workers) : (s.clusters.any (fun d => d.row.name == c.row.name &&
      d.workers.any (fun y => y.row.name == w.row.name && timeoutWorker cfg now d y.row))) = true ↔ WorkerLate cfg now c w := by
    rw [← timeoutWorker_iff nr]
    simp only [List.any_eq_true, Bool.and_eq_true, beq_iff_eq]
    constructor
    · rintro ⟨d, hd, e, y, hy, e', ht⟩
      have := cname_inj hs.named.nodup hd hc e
      subst this
      rwa [name_inj (hs.inv d hd).1.nodup hy hw e'] at ht
    · intro h; exact ⟨c, hc, rfl, w, hw, rfl, h⟩
  generalize (s.clusters.filter (fun c => timeoutCluster cfg now c = .fail)).map (fun c => c.row.name) = cs at mem
  obtain ⟨lt, hl⟩ : ∃ lt : Nat → Nat → Bool, (fun k x : Nat => s.clusters.any (fun d => d.row.name == k &&
      d.workers.any (fun y => y.row.name == x && timeoutWorker cfg now d y.row))) = lt := ⟨_, rfl⟩
  have late (w : Worker) (hw : w ∈ c.workers) : lt c.row.name w.row.name = true ↔ WorkerLate cfg now c w := by
    rw [← hl]; exact late w hw
  have e1 : onAll c [.updC (fun k => if k ∈ cs then { target := some .failed } else {}), .putC (fun k => decide (k ∈ cs)),
      .updW (fun k x => if lt k x then { target := some .failed } else {}), .putW lt] =
      { row := if c.row.name ∈ cs then { c.row with target := .failed } else c.row
        vol := if c.row.name ∈ cs then { c.vol with pending := true } else c.vol
        workers := c.workers.map (fun w => if lt c.row.name w.row.name then
          { row := { w.row with target := .failed }, vol := { w.vol with pending := true } } else w) } := by
    rw [onAll_cons, onAll_cons, onAll_cons, onAll_cons, onAll_nil]
    have a1 : (Act.updC (fun k => if k ∈ cs then { target := some .failed } else {})).onCluster c =
        { c with row := if c.row.name ∈ cs then { c.row with target := .failed } else c.row } := by
      simp only [Act.onCluster]
      split <;> simp [CUpd.app]
    rw [a1]
    have a2 (d : Cluster) (e : d.row.name = c.row.name) : (Act.putC (fun k => decide (k ∈ cs))).onCluster d =
        { d with vol := if c.row.name ∈ cs then { d.vol with pending := true } else d.vol } := by
      simp only [Act.onCluster, e]
      by_cases h : c.row.name ∈ cs <;> simp [h]
    rw [a2 _ (by split <;> rfl), updW_on, putW_on]
    simp only [List.map_map]
    congr 1
    refine List.map_congr_left (fun w hw => ?_)
    have en : (if c.row.name ∈ cs then ({ c.row with target := .failed } : CRow) else c.row).name = c.row.name := by split <;> rfl
    simp only [Function.comp]
    rw [en]
    cases h : lt c.row.name w.row.name <;> simp [h, WUpd.app]
  refine Eq.trans (b := onAll c [.updC (fun k => if k ∈ cs then { target := some .failed } else {}), .putC (fun k => decide (k ∈ cs)),
      .updW (fun k x => if lt k x then { target := some .failed } else {}), .putW lt]) (by rw [← hl]) ?_
  rw [e1]
  by_cases hL : ClusterLate cfg now c
  · have hm := mem.2 hL
    simp only [afterTimeout, if_pos hL, if_pos hm]
    congr 1
    refine map_id_of (fun w hw => if_neg ?_)
    rw [late w hw]
    exact fun h => h.2.2.1 hL
  · have hm := mt mem.1 hL
    simp only [afterTimeout, if_neg hL, if_neg hm]
    congr 1
    refine List.map_congr_left (fun w hw => ?_)
    simp only [afterTimeoutW]
    by_cases hW : WorkerLate cfg now c w
    · rw [if_pos hW, if_pos ((late w hw).2 hW)]
    · rw [if_neg hW, if_neg (mt (late w hw).1 hW)]

end Verif.Backend
