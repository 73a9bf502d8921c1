import Verif.Backend.Look
/-
C22, strengthened: each look of the gateway at a running cluster provides the requested workers, and what is missing
later are only workers whose closing was announced and that finished after that.
-/
set_option linter.unusedSimpArgs false
set_option linter.unusedVariables false
namespace Verif.Backend

/-- How many workers of the cluster are not asked to finish. -/
def Cluster.provided (c : Cluster) : Nat := (c.workers.filter (fun w => decide (¬ w.row.target.finished))).length

/-- The stop of worker `x` was complete in `c`: it was stored as finished, and no call for it was in flight. -/
def Cluster.doneWith (c : Cluster) (x : Nat) : Prop :=
  ∃ w ∈ c.workers, w.row.name = x ∧ w.row.status.finished ∧ w.vol.fl = .idle

instance (c : Cluster) (x : Nat) : Decidable (c.doneWith x) := inferInstanceAs (Decidable (∃ w ∈ c.workers, _))

/-- The workers of `c` that were announced as closing, were asked to finish, and were not done with in `c1`. -/
def announcedSince (c1 c : Cluster) : List Worker :=
  c.workers.filter (fun w => w.row.closeExpected && decide w.row.target.finished && !decide (c1.doneWith w.row.name))

theorem running33 {bulk : Bool} {c : Cluster} (h : CP bulk c) (hr : c.modelStatus = some .running) :
    c.row.status = .running ∧ c.row.target = .running := by
  have h33 : c.row.status.n = 3 ∧ c.row.target.n = 3 := by
    have := rank_eq h hr
    have := h.tgt
    simp only [ClusterStatus.rank] at *
    repeat' split at *
    all_goals omega
  exact ⟨n_eq3.2 h33.1, n_eq3.2 h33.2⟩

theorem create_provided (n : Nat) (now : Int) : ∀ (k next : Nat) (y : Cluster), y.row.name = n →
    (onAll y (createWorkers n next now k)).row = y.row ∧ (onAll y (createWorkers n next now k)).provided = y.provided + k := by
  intro k
  induction k with
  | zero => exact fun next y _ => ⟨rfl, rfl⟩
  | succ k ih =>
    intro next y hy
    simp only [createWorkers, onAll_cons]
    rw [newW_on _ _ _ hy, putWs_on _ _ _ (by exact hy)]
    obtain ⟨i1, i2⟩ := ih (next + 1) _ (show ({ y with workers := (y.workers ++ [Worker.fresh (newWRow next now)]).map _ } : Cluster).row.name = n from hy)
    refine ⟨i1, i2.trans ?_⟩
    simp only [Cluster.provided]
    rw [List.filter_map, List.length_map]
    have e : ((fun w : Worker => decide (¬ w.row.target.finished)) ∘ fun w =>
        if w.row.name ∈ [next] then { w with vol := { w.vol with pending := true } } else w) =
        fun w => decide (¬ w.row.target.finished) := by
      funext w
      simp only [Function.comp]
      split <;> rfl
    rw [e, List.filter_append, List.length_append]
    have : (List.filter (fun w : Worker => decide (¬ w.row.target.finished)) [Worker.fresh (newWRow next now)]).length = 1 := rfl
    omega

theorem active_provided (c : Cluster) : c.activeWorkers.length = c.provided := by
  simp only [Cluster.activeWorkers, Cluster.provided]
  congr 1
  refine List.filter_congr (fun w _ => ?_)
  simp only [WRow.active]
  rw [Bool.eq_iff_iff, decide_eq_true_iff, decide_eq_true_iff, finished_iff]
  exact Nat.not_le.symm

theorem scale_provides {cfg : Cfg} {next : Nat} {c : Cluster} {now : Int} {v : CVol} {r : CRow}
    (hn : r.name = c.row.name) (hr : r.count = c.row.count)
    (ht : (onAll { c with row := r, vol := v } (checkScaleActs cfg next c now)).row.target = .running) :
    (onAll { c with row := r, vol := v } (checkScaleActs cfg next c now)).row.count ≤
      (onAll { c with row := r, vol := v } (checkScaleActs cfg next c now)).provided := by
  by_cases hl : cfg.failLimit ≤ c.vol.failCount
  · simp only [checkScaleActs, if_pos hl] at ht
    rw [onAll_cons, updC1_on _ _ _ (by exact hn), onAll_cons, putC1_on _ _ (by exact hn), onAll_nil] at ht
    simp [CUpd.app] at ht
  · simp only [checkScaleActs, if_neg hl]
    obtain ⟨e1, e2⟩ := create_provided c.row.name now (c.row.count - c.activeWorkers.length).toNat next
      { c with row := r, vol := v } hn
    rw [e1, e2]
    have : ({ c with row := r, vol := v } : Cluster).provided = c.activeWorkers.length := (active_provided c).symm
    rw [this]
    dsimp only
    rw [hr]
    omega

/-- C22, each look. When the gateway takes a cluster from its queue and the cluster runs after that, at least as many of
its workers as its scheduler requested are not asked to finish. -/
theorem C22_each_look_partial {cfg : Cfg} {evs : List Ev} {now : Int} {c d : Cluster} (hc : c ∈ (run cfg evs).clusters)
    (hp : c.vol.pending = true) (hf : c.vol.fl = .idle)
    (hd : d ∈ (run cfg (evs ++ [.op (.getC c.row.name now)])).clusters) (hn : d.row.name = c.row.name)
    (hr : d.modelStatus = some .running) : d.row.count ≤ d.provided := by
  have hi := run_inv cfg evs
  have e : run cfg (evs ++ [.op (.getC c.row.name now)]) = (run cfg evs).step cfg (.getC c.row.name now) := by
    simp [run, State.ev]
  have hi' := run_inv cfg (evs ++ [.op (.getC c.row.name now)])
  obtain ⟨ds, dt⟩ := running33 (hi'.inv d hd).1 hr
  have le : Le c d := by
    obtain ⟨y, hy, l⟩ := (ev_le hi (.op (.getC c.row.name now))).1 c hc
    have ee : (run cfg evs).ev cfg (.op (.getC c.row.name now)) = run cfg (evs ++ [.op (.getC c.row.name now)]) := e.symm
    rw [ee] at hy
    rcases hy with hy | hy
    · rw [cname_inj hi'.named.nodup hd hy (hn.trans l.name.symm)]; exact l
    · exact (hi'.named.disjoint d hd y hy (hn.trans l.name.symm)).elim
  have tc : c.row.target = .running := by
    rcases (hi.inv c hc).1.tgt with h | h
    · exact n_eq3.2 h
    · have := (le.tgt h).1; rw [dt] at this; simp at this
  have s5 : c.row.status.n < 5 := by
    have := le.st
    rw [ds] at this
    simp at this
    omega
  rw [e, step_clusters hi rfl] at hd
  obtain ⟨x, hx, rfl⟩ := List.mem_map.1 hd
  rw [onAll_name] at hn
  have := cname_inj hi.named.nodup hx hc hn
  subst this
  have ea : acts cfg (run cfg evs) (.getC x.row.name now) =
      .volC x.row.name (fun v => { v with pending := false }) :: reconcileClusterActs cfg (run cfg evs).next x now := by
    simp [acts, sfind_mem hi.named.nodup hx, hp, hf]
  rw [ea] at ds dt ⊢
  rw [onAll_cons, volC_on _ _ _ (by rfl)] at ds dt ⊢
  have n5 : ¬ (JobStatus.stopped.n ≤ x.row.status.n) := by rw [stopped_n]; omega
  have nt : ¬ (x.row.target = .stopped ∨ x.row.target = .failed) := by rw [tc]; decide
  simp only [reconcileClusterActs, if_neg n5, if_neg nt, if_pos tc] at ds dt ⊢
  by_cases hcr : x.row.status = .created
  · rw [if_pos hcr, onAll_cons, volC_on _ _ _ (by rfl), onAll_nil] at ds
    replace ds : x.row.status = .running := ds
    rw [hcr] at ds
    simp at ds
  · rw [if_neg hcr] at ds dt ⊢
    by_cases hsu : x.row.status = .submitted
    · by_cases hsc : x.row.sched = ""
      · have u1 : (decide (x.row.status = .submitted) && decide (x.row.sched ≠ "")) = false := by simp [hsc]
        have u2 : decide (x.row.status = .running) = false := by rw [hsu]; rfl
        rw [u1, u2] at ds
        replace ds : x.row.status = .running := ds
        rw [hsu] at ds
        simp at ds
      · have u1 : (decide (x.row.status = .submitted) && decide (x.row.sched ≠ "")) = true := by simp [hsc, hsu]
        rw [u1] at dt ⊢
        simp only [Bool.true_or, if_true] at dt ⊢
        rw [onAll_append, onAll_append, toRunningActs] at dt ⊢
        simp only [onAll_cons, onAll_nil] at dt ⊢
        rw [updC1_on _ _ _ (by rfl), volC_on _ _ _ (by rw [onCluster_name]; rfl), volC_on _ _ _ (by rfl)] at dt ⊢
        exact scale_provides rfl rfl dt
    · have hrn : x.row.status = .running := by
        have := (hi.inv x hx).1.clo
        have := n_range x.row.status
        rw [tc] at *
        rw [n_eq1] at hcr
        rw [n_eq2] at hsu
        rw [n_eq3]
        simp at *
        omega
      have u1 : (decide (x.row.status = .submitted) && decide (x.row.sched ≠ "")) = false := by simp [hsu]
      have u2 : decide (x.row.status = .running) = true := by rw [hrn]; rfl
      rw [u1, u2] at dt ⊢
      simp only [Bool.false_or, if_true, Bool.false_eq_true, if_false, List.nil_append] at dt ⊢
      rw [onAll_append, onAll_cons, volC_on _ _ _ (by rfl), onAll_nil] at dt ⊢
      exact scale_provides rfl rfl dt

example : ((run cfgS expectedClose).find 0).map (fun c => decide (c.row.count ≤ c.provided)) = some false ∧
    ((run cfgS (expectedClose ++ [.op (.heartbeat 0 (beat 3 [1] [] []) 6000)])).find 0).map (fun c => (c.vol.pending, c.vol.fl)) = some (true, .idle) ∧
    ((run cfgS (expectedClose ++ [.op (.heartbeat 0 (beat 3 [1] [] []) 6000), .op (.getC 0 6000)])).find 0).map (fun c =>
      (c.modelStatus, c.row.count, c.provided)) = some (some .running, 3, 3) := by decide +kernel

/-- C22, what can be missing. From a moment at which a cluster had as many workers as its scheduler requested (as after
each look, `C22_each_look_partial`), however long ago, and through any history with crashes: whenever the cluster runs and nothing is queued or
in flight for it, the workers missing are no more than those that were announced as closing, were asked to finish, and were not
already done with at that moment. -/
theorem C22_missing_since_partial {cfg : Cfg} {evs1 evs2 : List Ev} {c1 c : Cluster} (h1 : c1 ∈ (run cfg evs1).clusters)
    (henough : c1.row.count ≤ c1.provided) (hc : c ∈ (run cfg (evs1 ++ evs2)).clusters) (hn : c.row.name = c1.row.name)
    (hr : c.modelStatus = some .running) (hq : c.Quiescent) :
    c.row.count ≤ c.provided + (announcedSince c1 c).length := by
  have hi := run_inv cfg evs1
  have hi2 := run_inv cfg (evs1 ++ evs2)
  let B : Nat → Nat → Bool := fun n x => decide (n = c1.row.name ∧ c1.doneWith x)
  have old : Old B (run cfg evs1) := by
    constructor
    · intro d hd w hw hb
      obtain ⟨hdn, w1, hw1, hx, hf, hi1⟩ := of_decide_eq_true hb
      have := cname_inj hi.named.nodup hd h1 hdn
      subst this
      have := name_inj (hi.inv d hd).1.nodup hw1 hw hx
      subst this
      exact ⟨finished_iff.1 hf, hi1⟩
    · intro n x hb
      obtain ⟨-, w1, hw1, hx, -, -⟩ := of_decide_eq_true hb
      rw [← hx]
      exact (hi.named.bound c1 h1).2 w1 hw1
  have off {d : Cluster} (hd : d.row.name ≠ c1.row.name) : forgetC B d = d := by
    have : d.workers.map (forgetW B d.row.name) = d.workers := map_id_of (fun w _ => forgetW_old (by simp [B, hd]))
    simp only [forgetC, this]
  have inv1 : SInv cfg ((run cfg evs1).forget B) := by
    refine forget_sinv hi (fun d hd hs3 ht3 hpd => ?_)
    by_cases e : d.row.name = c1.row.name
    · have := cname_inj hi.named.nodup hd h1 e
      subst this
      refine Int.le_trans henough (Int.ofNat_le.2 ?_)
      simp only [Cluster.supply, forgetC_workers]
      rw [List.filter_map, List.length_map]
      simp only [Cluster.provided]
      have : d.workers.filter (fun w => decide (¬ w.row.target.finished)) =
          (d.workers.filter (Worker.supplies ∘ forgetW B d.row.name)).filter (fun w => decide (¬ w.row.target.finished)) := by
        rw [List.filter_filter]
        refine List.filter_congr (fun w hw => ?_)
        rw [Bool.eq_iff_iff, Bool.and_eq_true]
        refine ⟨fun h => ⟨h, ?_⟩, fun h => h.1⟩
        have hnf := of_decide_eq_true h
        have : w.row.status.n < 5 := Nat.lt_of_not_le (fun h5 => hnf (finished_iff.2 (((hi.inv d hd).1.ws w hw).fin h5)))
        simp only [Function.comp, Worker.supplies, forgetW_status, Bool.or_eq_true, decide_eq_true_iff]
        exact Or.inr this
      rw [this]
      exact List.length_filter_le _ _
    · rw [off e]
      exact (hi.inv d hd).2.sup hs3 ht3 hpd
  have er : run cfg (evs1 ++ evs2) = evs2.foldl (State.ev cfg) (run cfg evs1) := by simp [run]
  have ff := forget_fold evs2 hi old
  have inv2 : SInv cfg ((run cfg (evs1 ++ evs2)).forget B) := by
    rw [er, ← ff]
    have : ∀ (l : List Ev) (s : State), SInv cfg s → SInv cfg (l.foldl (State.ev cfg) s) := by
      intro l
      induction l with
      | nil => exact fun s h => h
      | cons e l ih => exact fun s h => ih _ (ev_inv h e)
    exact this _ _ inv1
  obtain ⟨hst, htg⟩ := running33 (hi2.inv c hc).1 hr
  have sup := (inv2.inv (forgetC B c) (List.mem_map.2 ⟨c, hc, rfl⟩)).2.sup (by rw [forgetC_row, hst]; rfl)
    (by rw [forgetC_row, htg]; rfl) (by rw [forgetC_vol]; exact hq.1)
  rw [forgetC_row] at sup
  refine Int.le_trans sup ?_
  rw [← Int.natCast_add]
  refine Int.ofNat_le.2 ?_
  simp only [Cluster.supply, forgetC_workers, Cluster.provided, announcedSince]
  rw [List.filter_map, List.length_map]
  have key : ∀ ws : List Worker, (∀ w ∈ ws, w ∈ c.workers) →
      (ws.filter (Worker.supplies ∘ forgetW B c.row.name)).length ≤ (ws.filter (fun w => decide (¬ w.row.target.finished))).length +
        (ws.filter (fun w => w.row.closeExpected && decide w.row.target.finished && !decide (c1.doneWith w.row.name))).length := by
    intro ws
    induction ws with
    | nil => simp
    | cons w ws ih =>
      intro h
      have ih := ih (fun x hx => h x (by simp [hx]))
      have hw := h w (by simp)
      have h1 : (Worker.supplies ∘ forgetW B c.row.name) w = true → decide (¬ w.row.target.finished) = true ∨
          (w.row.closeExpected && decide w.row.target.finished && !decide (c1.doneWith w.row.name)) = true := by
        intro hsup
        by_cases hf : w.row.target.finished
        · right
          simp only [Function.comp, Worker.supplies, Bool.or_eq_true, decide_eq_true_eq, forgetW_status] at hsup
          rcases hsup with hs | hs
          · by_cases hb : c1.doneWith w.row.name
            · have : B c.row.name w.row.name = true := by simp [B, hn, hb]
              simp [forgetW, forgetR, this] at hs
            · have : B c.row.name w.row.name = false := by simp [B, hb]
              rw [forgetW_old this] at hs
              simp [hs, hf, hb]
          · rcases ((hi2.inv c hc).2.ws w hw).nw3 (finished_iff.1 hf) hs with h | h
            · rw [(hq.2.2 w hw).1] at h; simp at h
            · rw [(hq.2.2 w hw).2] at h; simp at h
        · left; simpa using hf
      simp only [List.filter_cons]
      cases a : (Worker.supplies ∘ forgetW B c.row.name) w
      · simp only [Bool.false_eq_true, if_false]
        repeat' split
        all_goals (try simp only [List.length_cons]); omega
      · rcases h1 a with h1 | h1 <;> rw [h1] <;> simp only [if_true, List.length_cons] <;> repeat' split
        all_goals (try simp only [List.length_cons]); omega
  exact key c.workers (fun _ h => h)

/-- A worker closed as announced and was replaced at the next look; later another one closes as announced. Only that one can be
missing, although two are marked. -/
def closeTwice : List Ev :=
  expectedClose ++ [.op (.heartbeat 0 (beat 3 [1] [] []) 6000), .op (.getC 0 6000)]

/-- What follows. -/
def closeTwiceMore : List Ev :=
  [.op (.getW 0 3 6000), .op (.endStartW 0 3 true), .op (.getW 0 4 6000), .op (.endStartW 0 4 true),
    .op (.heartbeat 0 (beat 3 [1, 3, 4] [] []) 7000), .op (.heartbeat 0 (beat 3 [1, 3] [4] []) 8000),
    .op (.heartbeat 0 (beat 3 [1, 3] [] [4]) 9000), .op (.getW 0 4 9000), .op (.endStopW 0 4 9000)]

example : (((run cfgS closeTwice).find 0).bind (fun c1 => ((run cfgS (closeTwice ++ closeTwiceMore)).find 0).map (fun c =>
    decide (c1.row.count ≤ c1.provided ∧ c.modelStatus = some .running ∧ c.row.count = 3 ∧ c.provided = 2 ∧
      (announcedSince c1 c).length = 1 ∧ (c.workers.filter (fun w => w.row.closeExpected)).length = 2 ∧
      (c.vol.pending = false ∧ c.vol.fl = .idle ∧ ∀ w ∈ c.workers, w.vol.pending = false ∧ w.vol.fl = .idle))))) =
    some true := by decide +kernel

end Verif.Backend
