import Verif.Backend.Just
import Verif.Backend.Props
/-
Deficits come only from closings that were announced after the cluster last had enough workers. The proof compares a
history with the same history from a state in which the finished workers are no longer marked as expected to close: the
gateway never reads that mark of a finished worker again, so the two histories differ in nothing else.
-/
set_option linter.unusedSimpArgs false
set_option linter.unusedVariables false
namespace Verif.Backend

section
variable (B : Nat → Nat → Bool)

/-- The row without the mark, if it is one of those. -/
def forgetR (n : Nat) (r : WRow) : WRow := if B n r.name then { r with closeExpected := false } else r

/-- The worker. -/
def forgetW (n : Nat) (w : Worker) : Worker := { w with row := forgetR B n w.row }

/-- The cluster. -/
def forgetC (c : Cluster) : Cluster := { c with workers := c.workers.map (forgetW B c.row.name) }

/-- The rows of a cluster. -/
def forgetE (e : DbEntry) : DbEntry := (e.1, e.2.map (forgetR B e.1.name))

/-- The gateway. -/
def State.forget (s : State) : State :=
  { s with db := s.db.map (forgetE B), clusters := s.clusters.map (forgetC B), purged := s.purged.map (forgetC B) }

/-- The chosen workers are finished, with no call in flight, and are not names yet to be given. -/
structure Old (s : State) : Prop where
  fin : ∀ c ∈ s.clusters, ∀ w ∈ c.workers, B c.row.name w.row.name = true → 5 ≤ w.row.status.n ∧ w.vol.fl = .idle
  bound : ∀ n x, B n x = true → x < s.next

/-- The micro-action leaves the chosen workers alone. -/
def Act.spares : Act → Prop
  | .updW f => ∀ n x, B n x = true → (f n x).closeExpected = none ∧ (f n x).status = none
  | .volW n x f => B n x = true → ∀ v : WVol, (f v).fl = v.fl
  | .newW n r => B n r.name = false ∧ r.closeExpected = false
  | _ => True

/-- The micro-action does not mark the chosen workers. -/
def Act.keepsMark : Act → Prop
  | .updW f => ∀ n x, B n x = true → (f n x).closeExpected = none
  | .newW n r => B n r.name = false
  | _ => True

end

section
variable {B : Nat → Nat → Bool}

theorem Act.spares.mark {a : Act} (h : a.spares B) : a.keepsMark B := by
  cases a with
  | updW f => exact fun n x hb => (h n x hb).1
  | newW n r => exact h.1
  | _ => trivial

@[simp] theorem forgetR_name (n : Nat) (r : WRow) : (forgetR B n r).name = r.name := by unfold forgetR; split <;> rfl
@[simp] theorem forgetR_status (n : Nat) (r : WRow) : (forgetR B n r).status = r.status := by unfold forgetR; split <;> rfl
@[simp] theorem forgetR_target (n : Nat) (r : WRow) : (forgetR B n r).target = r.target := by unfold forgetR; split <;> rfl
@[simp] theorem forgetR_start (n : Nat) (r : WRow) : (forgetR B n r).startTime = r.startTime := by unfold forgetR; split <;> rfl
@[simp] theorem forgetW_name (n : Nat) (w : Worker) : (forgetW B n w).row.name = w.row.name := forgetR_name n _
@[simp] theorem forgetW_status (n : Nat) (w : Worker) : (forgetW B n w).row.status = w.row.status := forgetR_status n _
@[simp] theorem forgetW_target (n : Nat) (w : Worker) : (forgetW B n w).row.target = w.row.target := forgetR_target n _
@[simp] theorem forgetW_start (n : Nat) (w : Worker) : (forgetW B n w).row.startTime = w.row.startTime := forgetR_start n _
@[simp] theorem forgetW_vol (n : Nat) (w : Worker) : (forgetW B n w).vol = w.vol := Eq.trans rfl rfl
@[simp] theorem forgetC_row (c : Cluster) : (forgetC B c).row = c.row := Eq.trans rfl rfl
@[simp] theorem forgetC_vol (c : Cluster) : (forgetC B c).vol = c.vol := Eq.trans rfl rfl
@[simp] theorem forgetC_workers (c : Cluster) : (forgetC B c).workers = c.workers.map (forgetW B c.row.name) := rfl

theorem forgetR_app {n : Nat} {r : WRow} {u : WUpd} (h : B n r.name = true → u.closeExpected = none) :
    u.app (forgetR B n r) = forgetR B n (u.app r) := by
  have e : (u.app r).name = r.name := rfl
  cases hb : B n r.name with
  | false => simp [forgetR, hb, e]
  | true =>
    have := h hb
    simp [forgetR, hb, e, WUpd.app, this]

theorem forget_onWorker {a : Act} (h : a.keepsMark B) (n : Nat) (w : Worker) :
    a.onWorker n (forgetW B n w) = forgetW B n (a.onWorker n w) := by
  cases a with
  | updW f => simp only [Act.onWorker, forgetW, forgetR_name]; rw [forgetR_app (fun hb => h _ _ hb)]
  | putW f => simp only [Act.onWorker, forgetW_name]; (by_cases e : f n w.row.name = true) <;> simp [e, forgetW]
  | volW m x f => simp only [Act.onWorker, forgetW_name]; (by_cases e : m = n ∧ x = w.row.name) <;> simp [e, forgetW]
  | _ => rfl

theorem forget_onCluster {a : Act} (h : a.keepsMark B) (c : Cluster) : a.onCluster (forgetC B c) = forgetC B (a.onCluster c) := by
  have wk : ((forgetC B c).workers.map (a.onWorker c.row.name)) = (c.workers.map (a.onWorker c.row.name)).map (forgetW B c.row.name) := by
    rw [forgetC_workers, List.map_map, List.map_map]
    exact List.map_congr_left (fun w _ => forget_onWorker h _ w)
  cases a with
  | updC f => rfl
  | updW f => simp only [Act.onCluster, forgetC_row]; rw [wk]; rfl
  | putW f => simp only [Act.onCluster, forgetC_row]; rw [wk]; rfl
  | volW m x f => simp only [Act.onCluster, forgetC_row]; rw [wk]; rfl
  | newW n r =>
    simp only [Act.onCluster]
    by_cases e : n = c.row.name
    · rw [if_pos (show n = (forgetC B c).row.name from e), if_pos e]
      have : forgetW B c.row.name (Worker.fresh r) = Worker.fresh r := by
        have : B c.row.name r.name = false := by rw [← e]; exact h
        simp [forgetW, forgetR, Worker.fresh, this]
      simp only [forgetC, List.map_append, List.map_cons, List.map_nil, this]
    · rw [if_neg (show ¬ (n = (forgetC B c).row.name) from e), if_neg e]
  | putC f =>
    simp only [Act.onCluster]
    by_cases e : f c.row.name = true
    · rw [if_pos (show f (forgetC B c).row.name = true from e), if_pos e]; rfl
    · rw [if_neg (show ¬ (f (forgetC B c).row.name = true) from e), if_neg e]
  | volC n f =>
    simp only [Act.onCluster]
    by_cases e : n = c.row.name
    · rw [if_pos (show n = (forgetC B c).row.name from e), if_pos e]; rfl
    · rw [if_neg (show ¬ (n = (forgetC B c).row.name) from e), if_neg e]
  | newC r => rfl
  | purge p => rfl

theorem forget_onEntry {a : Act} (h : a.keepsMark B) (e : DbEntry) : a.onEntry (forgetE B e) = forgetE B (a.onEntry e) := by
  cases a with
  | updW f =>
    simp only [Act.onEntry, forgetE, List.map_map, Prod.mk.injEq, true_and]
    refine List.map_congr_left (fun r _ => ?_)
    simp only [Function.comp, forgetR_name]
    exact forgetR_app (fun hb => h _ _ hb)
  | newW n r =>
    simp only [Act.onEntry]
    by_cases e' : n = e.1.name
    · rw [if_pos (show n = (forgetE B e).1.name from e'), if_pos e']
      have : forgetR B e.1.name r = r := by
        have : B e.1.name r.name = false := by rw [← e']; exact h
        simp [forgetR, this]
      simp only [forgetE, List.map_append, List.map_cons, List.map_nil, this]
    · rw [if_neg (show ¬ (n = (forgetE B e).1.name) from e'), if_neg e']
  | _ => rfl

theorem forget_apply {a : Act} (h : a.spares B) (s : State) : (s.forget B).apply a = (s.apply a).forget B := by
  have d : (s.db.map (forgetE B)).map a.onEntry = (s.db.map a.onEntry).map (forgetE B) := by
    rw [List.map_map, List.map_map]; exact List.map_congr_left (fun e _ => forget_onEntry h.mark e)
  have c : (s.clusters.map (forgetC B)).map a.onCluster = (s.clusters.map a.onCluster).map (forgetC B) := by
    rw [List.map_map, List.map_map]; exact List.map_congr_left (fun e _ => forget_onCluster h.mark e)
  cases a with
  | newC r => simp [State.apply, State.forget, forgetE, forgetC]
  | purge p =>
    simp only [State.apply, State.forget, List.filter_map, List.map_append]
    rfl
  | newW n r => simp only [State.apply, State.forget]; rw [d, c]
  | updC f => simp only [State.apply, State.forget]; rw [d, c]
  | updW f => simp only [State.apply, State.forget]; rw [d, c]
  | putC f => simp only [State.apply, State.forget]; rw [d, c]
  | putW f => simp only [State.apply, State.forget]; rw [d, c]
  | volC n f => simp only [State.apply, State.forget]; rw [d, c]
  | volW n w f => simp only [State.apply, State.forget]; rw [d, c]

theorem forget_applyAll {l : List Act} (h : ∀ a ∈ l, a.spares B) : ∀ s : State, (s.forget B).applyAll l = (s.applyAll l).forget B := by
  induction l with
  | nil => exact fun _ => rfl
  | cons a l ih =>
    intro s
    rw [applyAll_cons, applyAll_cons, forget_apply (h a (by simp)), ih (fun b hb => h b (by simp [hb]))]

/-! ### The chosen workers stay as they are -/

theorem old_onWorker {a : Act} (h : a.spares B) {n : Nat} {w : Worker}
    (hw : B n w.row.name = true → 5 ≤ w.row.status.n ∧ w.vol.fl = .idle) :
    B n (a.onWorker n w).row.name = true → 5 ≤ (a.onWorker n w).row.status.n ∧ (a.onWorker n w).vol.fl = .idle := by
  cases a with
  | updW f =>
    intro hb
    replace hb : B n w.row.name = true := hb
    refine ⟨?_, (hw hb).2⟩
    have := (h _ _ hb).2
    simp only [Act.onWorker, WUpd.app, this]
    exact (hw hb).1
  | putW f => simp only [Act.onWorker]; split <;> exact hw
  | volW m x f =>
    simp only [Act.onWorker]
    split
    · rename_i e
      intro hb
      refine ⟨(hw hb).1, ?_⟩
      have := h (by rw [e.1, e.2]; exact hb) w.vol
      dsimp only
      rw [this]
      exact (hw hb).2
    · exact hw
  | _ => exact hw

theorem old_apply {a : Act} (h : a.spares B) {s : State} (hs : Old B s) : Old B (s.apply a) := by
  have nx : s.next ≤ (s.apply a).next := by cases a <;> simp [State.apply]
  refine ⟨?_, fun n x hb => Nat.lt_of_lt_of_le (hs.bound n x hb) nx⟩
  have wk : ∀ c ∈ s.clusters, ∀ w ∈ c.workers.map (a.onWorker c.row.name), B c.row.name w.row.name = true →
      5 ≤ w.row.status.n ∧ w.vol.fl = .idle := by
    intro c hc w hw
    obtain ⟨z, hz, rfl⟩ := List.mem_map.1 hw
    exact old_onWorker h (hs.fin c hc z hz)
  have pl (hp : (s.apply a).clusters = s.clusters.map a.onCluster) : ∀ c ∈ (s.apply a).clusters, ∀ w ∈ c.workers,
      B c.row.name w.row.name = true → 5 ≤ w.row.status.n ∧ w.vol.fl = .idle := by
    rw [hp]
    intro c hc
    obtain ⟨d, hd, rfl⟩ := List.mem_map.1 hc
    rw [onCluster_name]
    cases a with
    | updC f => exact hs.fin d hd
    | updW f => exact wk d hd
    | putW f => exact wk d hd
    | volW m x f => exact wk d hd
    | newW n r =>
      simp only [Act.onCluster]
      split
      · rename_i e
        intro w hw hb
        rcases List.mem_append.1 hw with hw | hw
        · exact hs.fin d hd w hw hb
        · rw [List.mem_singleton] at hw
          rw [hw, ← e] at hb
          replace hb : B n r.name = true := hb
          rw [h.1] at hb
          simp at hb
      · exact hs.fin d hd
    | putC f => simp only [Act.onCluster]; split <;> exact hs.fin d hd
    | volC n f => simp only [Act.onCluster]; split <;> exact hs.fin d hd
    | newC r => exact hs.fin d hd
    | purge p => exact hs.fin d hd
  cases a with
  | newC r =>
    intro c hc
    rcases List.mem_append.1 hc with hc | hc
    · exact hs.fin c hc
    · rw [List.mem_singleton] at hc
      rw [hc]
      exact fun w hw => nomatch hw
  | purge p => exact fun c hc => hs.fin c (List.mem_filter.1 hc).1
  | newW n r => exact pl rfl
  | updC f => exact pl rfl
  | updW f => exact pl rfl
  | putC f => exact pl rfl
  | putW f => exact pl rfl
  | volC n f => exact pl rfl
  | volW n w f => exact pl rfl

theorem old_applyAll {l : List Act} (h : ∀ a ∈ l, a.spares B) : ∀ {s : State}, Old B s → Old B (s.applyAll l) := by
  induction l with
  | nil => exact fun h => h
  | cons a l ih => exact fun hs => ih (fun b hb => h b (by simp [hb])) (old_apply (h a (by simp)) hs)

/-- No operation touches them. -/
theorem acts_spares {cfg : Cfg} {s : State} (hi : SInv cfg s) (ho : Old B s) (o : Op) : ∀ a ∈ acts cfg s o, a.spares B := by
  intro a ha
  have hj := acts_just hi o a ha
  have nb {n x : Nat} (hb : B n x = true) : ¬ Busy s n x := by
    rintro ⟨c, hc, rfl, w, hw, rfl, h⟩
    have := ho.fin c hc w hw hb
    rcases h with h | h
    · omega
    · exact h this.2
  cases a with
  | updW f =>
    intro n x hb
    have := (hj n x).1
    constructor
    · exact Classical.byContradiction (fun e => nb hb (this (Or.inl e)))
    · exact Classical.byContradiction (fun e => nb hb (this (Or.inr e)))
  | volW n x f =>
    intro hb v
    rcases hj with h | h
    · exact (nb hb h).elim
    · exact h v
  | newW n r =>
    refine ⟨?_, hj.2.1⟩
    cases hb : B n r.name with
    | false => rfl
    | true => have := ho.bound n _ hb; have := hj.1; omega
  | _ => trivial

/-! ### The gateway does not read the mark of a finished worker -/

theorem forget_find (s : State) (n : Nat) : (s.forget B).find n = (s.find n).map (forgetC B) := by
  simp only [State.find, State.forget, List.find?_map]
  rfl

theorem forget_cfind (c : Cluster) (x : Nat) : (forgetC B c).find x = (c.find x).map (forgetW B c.row.name) := by
  simp only [Cluster.find, forgetC_workers, List.find?_map]
  congr 1
  have : ((fun y : Worker => decide (y.row.name = x)) ∘ forgetW B c.row.name) = fun y => decide (y.row.name = x) := by
    funext y; simp
  rw [this]

theorem forget_filter {c : Cluster} {p : Worker → Bool} (h : ∀ w ∈ c.workers, p (forgetW B c.row.name w) = p w) :
    (forgetC B c).workers.filter p = (c.workers.filter p).map (forgetW B c.row.name) := by
  rw [forgetC_workers, List.filter_map]
  congr 1
  exact List.filter_congr (fun w hw => h w hw)

theorem names_forget (n : Nat) (ws : List Worker) : names (ws.map (forgetW B n)) = names ws :=
  names_map (fun w _ => forgetW_name n w)

theorem forget_names_filter {c : Cluster} {p : Worker → Bool} (h : ∀ w ∈ c.workers, p (forgetW B c.row.name w) = p w) :
    names ((forgetC B c).workers.filter p) = names (c.workers.filter p) := by
  rw [forget_filter h, names_forget]

theorem forget_all {c : Cluster} {p : Worker → Bool} (h : ∀ w ∈ c.workers, p (forgetW B c.row.name w) = p w) :
    (forgetC B c).workers.all p = c.workers.all p := by
  rw [forgetC_workers, List.all_map]
  rw [Bool.eq_iff_iff, List.all_eq_true, List.all_eq_true]
  exact ⟨fun k w hw => by rw [← h w hw]; exact k w hw, fun k w hw => by simp only [Function.comp]; rw [h w hw]; exact k w hw⟩

theorem forget_active (c : Cluster) : (forgetC B c).activeWorkers.length = c.activeWorkers.length := by
  simp only [Cluster.activeWorkers]
  rw [forget_filter (fun w _ => by simp only [WRow.active]; rw [forgetW_target]), List.length_map]

theorem forget_allAtLeast (c : Cluster) (j : JobStatus) : (forgetC B c).allAtLeast j = c.allAtLeast j :=
  forget_all (fun w _ => by simp)

theorem forget_ready (bulk : Bool) (c : Cluster) : (forgetC B c).readyToClose bulk = c.readyToClose bulk := by
  have e : (forgetC B c).row = c.row := rfl
  unfold Cluster.readyToClose
  rw [forget_allAtLeast, forget_allAtLeast, e]

theorem forget_pick (c : Cluster) (m : Msg) (k : HbClass) : hbPick (forgetC B c) m k = (hbPick c m k).map (forgetW B c.row.name) :=
  forget_filter (fun w _ => by
    have : hbClass m (forgetW B c.row.name w).row = hbClass m w.row := by unfold hbClass; rw [forgetW_status, forgetW_name]
    rw [this])

theorem forgetW_old {c : Cluster} {w : Worker} (hb : B c.row.name w.row.name = false) : forgetW B c.row.name w = w := by
  simp [forgetW, forgetR, hb]

theorem forget_heartbeat {c : Cluster} (h : ∀ w ∈ c.workers, B c.row.name w.row.name = true → 5 ≤ w.row.status.n) (m : Msg)
    (now : Int) : heartbeatActs (forgetC B c) m now = heartbeatActs c m now := by
  have pk (k : HbClass) : names (hbPick (forgetC B c) m k) = names (hbPick c m k) := by rw [forget_pick, names_forget]
  have raises : hbRaises (forgetC B c) m = hbRaises c m := by simp [hbRaises, forget_pick]
  have upd : hbClusterUpdate (forgetC B c) m = hbClusterUpdate c m := rfl
  have stop : names (hbToStop (forgetC B c) m) = names (hbToStop c m) := by
    simp only [hbToStop, forget_pick, ← List.map_append, List.length_map, forgetC_row]
    split
    · rw [← List.map_take, names_forget]
    · rfl
  have closed (q : Bool → Bool) : names ((hbPick (forgetC B c) m .closed).filter (fun w => q w.row.closeExpected)) =
      names ((hbPick c m .closed).filter (fun w => q w.row.closeExpected)) := by
    have : hbPick (forgetC B c) m .closed = hbPick c m .closed := by
      rw [forget_pick]
      refine map_id_of (fun w hw => forgetW_old ?_)
      obtain ⟨hw, hk⟩ := List.mem_filter.1 hw
      cases hb : B c.row.name w.row.name with
      | false => rfl
      | true =>
        have := h w hw hb
        have hk := of_decide_eq_true hk
        rw [hbClass, if_pos (by simpa using this)] at hk
        simp at hk
    rw [this]
  have target : hbTarget (forgetC B c) m = hbTarget c m := by
    funext x
    simp only [hbTarget, closed (fun b => b), closed (fun b => !b), stop]
  have targeted : hbTargeted (forgetC B c) m = hbTargeted c m := by simp only [hbTargeted, pk, stop]
  have newly : hbNewlyRunning (forgetC B c) m = hbNewlyRunning c m := by
    simp only [hbNewlyRunning, forget_pick, ← List.map_append, List.filter_map]
    rw [names_forget]
    congr 2
    funext w
    simp only [Function.comp]
    rw [forgetW_status]
  simp only [heartbeatActs, raises, upd, target, targeted, newly, pk, forgetC_row]

theorem forget_scale (cfg : Cfg) (next : Nat) (c : Cluster) (now : Int) :
    checkScaleActs cfg next (forgetC B c) now = checkScaleActs cfg next c now := by
  simp only [checkScaleActs, forget_active, forgetC_row, forgetC_vol]

theorem forget_closing (cfg : Cfg) (c : Cluster) : toClosingActs cfg (forgetC B c) = toClosingActs cfg c := by
  simp only [toClosingActs, forgetC_row]
  rw [forget_names_filter (fun w _ => by rw [Bool.eq_iff_iff]; simp)]

theorem forget_stopped (c : Cluster) (now : Int) : stoppedActs (forgetC B c) now = stoppedActs c now := by
  simp only [stoppedActs, forgetC_row]
  rw [forget_names_filter (fun w _ => by rw [forgetW_status])]

theorem forget_reconcileC (cfg : Cfg) (next : Nat) (c : Cluster) (now : Int) :
    reconcileClusterActs cfg next (forgetC B c) now = reconcileClusterActs cfg next c now := by
  simp only [reconcileClusterActs, forget_scale, forget_closing, forget_stopped, forget_ready, forgetC_row]

theorem forget_requeue (cfg : Cfg) (c : Cluster) (b : Bool) : requeueAfterStop cfg (forgetC B c) b = requeueAfterStop cfg c b := by
  unfold requeueAfterStop
  rw [forget_ready, forgetC_row]

theorem forget_updW1 {n x : Nat} {u : WUpd} (h : u.closeExpected = none) (c : Cluster) :
    (updW1 n x u).onCluster (forgetC B c) = forgetC B ((updW1 n x u).onCluster c) := by
  refine forget_onCluster ?_ c
  intro m y _
  dsimp only
  split
  · exact h
  · rfl

theorem forget_wstopped (cfg : Cfg) (c : Cluster) (w : WRow) (now : Int) :
    workerStoppedActs cfg (forgetC B c) w now = workerStoppedActs cfg c w now := by
  unfold workerStoppedActs
  rw [forgetC_row]
  dsimp only
  rw [forget_updW1 rfl, forget_requeue]

theorem forget_reconcileW {cfg : Cfg} {c : Cluster} {w : Worker} {now : Int}
    (h : B c.row.name w.row.name = true → 5 ≤ w.row.status.n) :
    reconcileWorkerActs cfg (forgetC B c) (forgetW B c.row.name w).row now = reconcileWorkerActs cfg c w.row now := by
  cases hb : B c.row.name w.row.name with
  | true =>
    have h := h hb
    unfold reconcileWorkerActs
    dsimp only
    rw [if_pos (by rw [forgetW_status]; exact h), if_pos (show JobStatus.stopped.n ≤ w.row.status.n from h)]
  | false =>
    rw [forgetW_old hb]
    unfold reconcileWorkerActs
    rw [forgetC_row]
    dsimp only
    rw [forget_wstopped, forget_updW1 rfl]
    have : (if w.row.status = .closing then forgetC B c else forgetC B ((updW1 c.row.name w.row.name { status := some .closing }).onCluster c)) =
        forgetC B (if w.row.status = .closing then c else ((updW1 c.row.name w.row.name { status := some .closing }).onCluster c)) := by
      split <;> rfl
    rw [this, forget_ready]

theorem forget_timeoutC (cfg : Cfg) (now : Int) (c : Cluster) : timeoutCluster cfg now (forgetC B c) = timeoutCluster cfg now c := by
  unfold timeoutCluster
  rw [forgetC_row, forgetC_vol]

theorem forget_timeoutW (cfg : Cfg) (now : Int) (c : Cluster) (n : Nat) (w : Worker) :
    timeoutWorker cfg now (forgetC B c) (forgetW B n w).row = timeoutWorker cfg now c w.row := by
  unfold timeoutWorker
  rw [forget_timeoutC, forgetC_row, forgetW_status, forgetW_target, forgetW_start]

theorem forget_cnames (s : State) {p : Cluster → Bool} (h : ∀ c, p (forgetC B c) = p c) :
    ((s.forget B).clusters.filter p).map (fun c => c.row.name) = (s.clusters.filter p).map (fun c => c.row.name) := by
  simp only [State.forget, List.filter_map, List.map_map]
  have : p ∘ forgetC B = p := funext h
  rw [this]
  rfl

theorem forget_timeouts (cfg : Cfg) (s : State) (now : Int) : timeoutActs cfg (s.forget B) now = timeoutActs cfg s now := by
  have r : timeoutsRaise cfg now (s.forget B) = timeoutsRaise cfg now s := by
    simp only [timeoutsRaise, State.forget, List.any_map]
    have : ((fun c => decide (timeoutCluster cfg now c = .raise)) ∘ forgetC B) = fun c => decide (timeoutCluster cfg now c = .raise) := by
      funext c
      simp only [Function.comp]
      rw [forget_timeoutC]
    rw [this]
  have l (k x : Nat) : (s.forget B).clusters.any (fun c => c.row.name == k &&
      c.workers.any (fun w => w.row.name == x && timeoutWorker cfg now c w.row)) =
      s.clusters.any (fun c => c.row.name == k && c.workers.any (fun w => w.row.name == x && timeoutWorker cfg now c w.row)) := by
    simp only [State.forget, List.any_map]
    congr 1
    funext c
    simp only [Function.comp, forgetC_row, forgetC_workers, List.any_map]
    congr 2
    funext w
    simp only [Function.comp, forgetW_name, forget_timeoutW]
  unfold timeoutActs
  rw [r]
  simp only [l]
  rw [forget_cnames s (fun c => by rw [forget_timeoutC])]

theorem forget_cleanup (cfg : Cfg) (s : State) (now : Int) : cleanupActs cfg (s.forget B) now = cleanupActs cfg s now := by
  have : ((s.forget B).db.filter (fun e => expired cfg now e.1)).map (fun e => e.1.name) =
      (s.db.filter (fun e => expired cfg now e.1)).map (fun e => e.1.name) := by
    simp only [State.forget, List.filter_map, List.map_map]
    rfl
  unfold cleanupActs
  rw [this]

/-- So all operations do the same. -/
theorem forget_acts {cfg : Cfg} {s : State} (ho : Old B s) (o : Op) : acts cfg (s.forget B) o = acts cfg s o := by
  have nx : (s.forget B).next = s.next := rfl
  cases o with
  | startCluster user mx now => rfl
  | stopCluster n f =>
    simp only [acts, forget_find]
    cases s.find n with
    | none => rfl
    | some c => rfl
  | heartbeat n m now =>
    simp only [acts, forget_find]
    cases hc : s.find n with
    | none => rfl
    | some c => exact forget_heartbeat (fun w hw hb => (ho.fin c (sfind_spec hc).1 w hw hb).1) m now
  | shutdown =>
    simp only [acts, shutdownActs]
    rw [forget_cnames s (fun c => by rw [forgetC_row])]
  | checkTimeouts now => exact forget_timeouts cfg s now
  | checkClusters => rfl
  | checkWorkers => rfl
  | checkClustersEnd statuses => rfl
  | checkWorkersEnd statuses => rfl
  | cleanup now => exact forget_cleanup cfg s now
  | getC n now =>
    simp only [acts, forget_find]
    cases hc : s.find n with
    | none => rfl
    | some c =>
      simp only [Option.map_some, forgetC_vol, nx, forget_reconcileC]
  | getW n x now =>
    simp only [acts, forget_find]
    cases hc : s.find n with
    | none => rfl
    | some c =>
      simp only [Option.map_some, forget_cfind]
      cases hw : c.find x with
      | none => rfl
      | some w =>
        simp only [Option.map_some, forgetW_vol]
        rw [forget_reconcileW (fun hb => (ho.fin c (sfind_spec hc).1 w (find_spec hw).1 hb).1)]
  | yieldC n st =>
    simp only [acts, forget_find]
    cases s.find n with
    | none => rfl
    | some c => rfl
  | yieldW n x st =>
    simp only [acts, forget_find]
    cases hc : s.find n with
    | none => rfl
    | some c =>
      simp only [Option.map_some, forget_cfind]
      cases hw : c.find x with
      | none => rfl
      | some w => rfl
  | endStartC n ok =>
    simp only [acts, forget_find]
    cases s.find n with
    | none => rfl
    | some c => rfl
  | endStopC n now =>
    simp only [acts, forget_find]
    cases s.find n with
    | none => rfl
    | some c =>
      simp only [Option.map_some, forgetC_vol, endStopClusterActs, forget_stopped, forgetC_row]
  | endStartW n x ok =>
    simp only [acts, forget_find]
    cases hc : s.find n with
    | none => rfl
    | some c =>
      simp only [Option.map_some, forget_cfind]
      cases hw : c.find x with
      | none => rfl
      | some w => rfl
  | endStopW n x now =>
    simp only [acts, forget_find]
    cases hc : s.find n with
    | none => rfl
    | some c =>
      simp only [Option.map_some, forget_cfind]
      cases hw : c.find x with
      | none => rfl
      | some w =>
        simp only [Option.map_some, forgetW_vol]
        by_cases hf : w.vol.fl = .stopping
        · rw [if_pos hf, if_pos hf]
          have : forgetW B c.row.name w = w := by
            refine forgetW_old ?_
            cases hb : B c.row.name w.row.name with
            | false => rfl
            | true => have := (ho.fin c (sfind_spec hc).1 w (find_spec hw).1 hb).2; rw [hf] at this; simp at this
          rw [this]
          unfold endStopWorkerActs
          rw [forget_wstopped, forgetC_row]
        · rw [if_neg hf, if_neg hf]

theorem forget_chk (s : State) (o : Op) : chkAfter (s.forget B) o = chkAfter s o := by
  have e1 : checkClustersList (s.forget B) = checkClustersList s := forget_cnames s (fun c => by rw [forgetC_row])
  have e2 : checkWorkersList (s.forget B) = checkWorkersList s := by
    simp only [checkWorkersList, State.forget, List.filter_map, List.flatMap_map]
    have : ((fun c : Cluster => c.row.active && decide (c.row.status = .running)) ∘ forgetC B) =
        (fun c => c.row.active && decide (c.row.status = .running)) := by
      funext c; simp only [Function.comp]; rw [forgetC_row]
    rw [this]
    congr 1
    funext c
    simp only [Cluster.activeWorkers, forgetC_workers, List.filter_map, List.map_map, forgetC_row]
    have e3 : ((fun w : Worker => decide (w.row.status = .submitted)) ∘ forgetW B c.row.name) = (fun w => decide (w.row.status = .submitted)) := by
      funext w; simp only [Function.comp]; rw [forgetW_status]
    have e4 : ((fun w : Worker => w.row.active) ∘ forgetW B c.row.name) = (fun w => w.row.active) := by
      funext w; simp only [Function.comp, WRow.active]; rw [forgetW_target]
    rw [e3, e4]
    refine List.map_congr_left (fun w _ => ?_)
    simp only [Function.comp, forgetW_name]
  unfold chkAfter
  rw [e1, e2]
  rfl

theorem forget_restart (s : State) (now : Int) : (s.forget B).restart now = (s.restart now).forget B := by
  have lg (n : Nat) : (s.forget B).logOf n = s.logOf n := by
    simp only [State.logOf, forget_find]
    cases s.find n <;> rfl
  have : (s.forget B).db.map (fun e => load now (.crash :: (s.forget B).logOf e.1.name) e) =
      (s.db.map (fun e => load now (.crash :: s.logOf e.1.name) e)).map (forgetC B) := by
    simp only [State.forget, List.map_map]
    refine List.map_congr_left (fun e _ => ?_)
    have lg' := lg e.1.name
    simp only [State.forget] at lg'
    simp only [Function.comp, forgetE, lg']
    simp only [load, forgetC, List.map_map]
    congr 1
    refine List.map_congr_left (fun r _ => ?_)
    simp only [Function.comp, forgetW]
    rw [forgetR_status]
  simp only [State.restart]
  rw [this]
  rfl

theorem forget_ev {cfg : Cfg} {s : State} (hi : SInv cfg s) (ho : Old B s) (e : Ev) :
    (s.forget B).ev cfg e = (s.ev cfg e).forget B ∧ Old B (s.ev cfg e) := by
  cases e with
  | op o =>
    have h := acts_spares hi ho o
    constructor
    · simp only [State.ev, State.step]
      rw [forget_acts ho, forget_chk, forget_applyAll h]
      rfl
    · have := old_applyAll h ho
      exact ⟨this.fin, this.bound⟩
  | crash o k now =>
    have h : ∀ a ∈ (acts cfg s o).take k, a.spares B := fun a ha => acts_spares hi ho o a (List.mem_of_mem_take ha)
    constructor
    · simp only [State.ev]
      rw [forget_acts ho, forget_applyAll h, forget_restart]
    · have hx := old_applyAll h ho
      have sp := (prefix_sp hi o k).1
      refine ⟨?_, hx.bound⟩
      simp only [State.ev]
      rw [restart_clusters sp.synced sp.named now]
      intro c hc
      obtain ⟨d, hd, rfl⟩ := List.mem_map.1 hc
      rw [reload_row, reload_workers]
      intro w hw hb
      obtain ⟨z, hz, rfl⟩ := List.mem_map.1 hw
      exact ⟨(hx.fin d hd z hz hb).1, rfl⟩

theorem forget_fold {cfg : Cfg} (evs : List Ev) : ∀ {s : State}, SInv cfg s → Old B s →
    evs.foldl (State.ev cfg) (s.forget B) = (evs.foldl (State.ev cfg) s).forget B := by
  induction evs with
  | nil => exact fun _ _ => rfl
  | cons e evs ih =>
    intro s hi ho
    simp only [List.foldl_cons]
    rw [(forget_ev hi ho e).1]
    exact ih (ev_inv hi e) (forget_ev hi ho e).2

/-! ### The invariant of the state that forgot -/

theorem forget_wp {bulk : Bool} {cs ct : JobStatus} {log : List Ext} {n : Nat} {w : Worker} (h : WP bulk cs ct log w) :
    WP bulk cs ct log (forgetW B n w) := by
  constructor <;> simp only [forgetW_name, forgetW_status, forgetW_target, forgetW_vol]
  · exact h.tg
  · exact h.fin
  · exact h.clo
  · exact h.tclo
  · exact h.cfin
  · exact h.ccl
  · exact h.lfin
  · exact h.lcre
  · exact h.lop

theorem forget_wv {bulk : Bool} {cf : Flight} {log : List Ext} {n : Nat} {w : Worker} (h : WV bulk cf log w) :
    WV bulk cf log (forgetW B n w) := by
  constructor <;> simp only [forgetW_name, forgetW_status, forgetW_target, forgetW_vol]
  · exact h.flS
  · exact h.flT
  · exact h.nw3
  · exact h.nw4
  · exact h.nw5
  · exact h.cT

theorem forget_cnames_workers (c : Cluster) : names (forgetC B c).workers = names c.workers := by
  rw [forgetC_workers, names_forget]

theorem forget_cp {bulk : Bool} {c : Cluster} (h : CP bulk c) : CP bulk (forgetC B c) := by
  constructor <;> (try simp only [forgetC_row, forgetC_vol])
  · exact h.tgt
  · exact h.clo
  · rw [forget_active]; exact h.cnt
  · exact h.stt
  · exact h.sch
  · rw [forget_cnames_workers]; exact h.nodup
  · exact h.lfin
  · exact h.sep
  · exact h.lcre
  · rw [forget_cnames_workers]; exact h.lnm
  · intro w hw
    obtain ⟨z, hz, rfl⟩ := List.mem_map.1 hw
    exact forget_wp (h.ws z hz)

theorem forget_cv {bulk : Bool} {c : Cluster} (h : CV bulk c)
    (hs : c.row.status.n = 3 → c.row.target.n = 3 → c.vol.pending = false → c.row.count ≤ (forgetC B c).supply) :
    CV bulk (forgetC B c) := by
  constructor <;> (try simp only [forgetC_row, forgetC_vol])
  · exact h.flS
  · exact h.flT
  · exact h.nw1
  · rw [forget_ready]; exact h.nw2
  · exact h.nwS
  · exact h.ready
  · exact h.shut
  · exact h.rt1
  · exact h.rt2
  · exact h.rt3
  · exact h.rt4
  · exact h.rt5
  · exact hs
  · intro w hw
    obtain ⟨z, hz, rfl⟩ := List.mem_map.1 hw
    exact forget_wv (h.ws z hz)

theorem forget_sinv {cfg : Cfg} {s : State} (h : SInv cfg s)
    (hs : ∀ c ∈ s.clusters, c.row.status.n = 3 → c.row.target.n = 3 → c.vol.pending = false → c.row.count ≤ (forgetC B c).supply) :
    SInv cfg (s.forget B) := by
  have nm : (s.forget B).clusters.map (fun c => c.row.name) = s.clusters.map (fun c => c.row.name) := by
    simp only [State.forget, List.map_map]
    rfl
  refine ⟨?_, ⟨by rw [nm]; exact h.named.nodup, ?_, ?_, ?_⟩, ?_, ?_⟩
  · have := h.synced
    simp only [Synced, State.forget] at this ⊢
    rw [this, List.map_map, List.map_map]
    refine List.map_congr_left (fun c _ => ?_)
    simp only [Function.comp, Cluster.entry, forgetE, forgetC, List.map_map, Prod.mk.injEq, true_and]
    rfl
  · intro c hc
    obtain ⟨d, hd, rfl⟩ := List.mem_map.1 hc
    refine ⟨(h.named.bound d hd).1, fun w hw => ?_⟩
    obtain ⟨z, hz, rfl⟩ := List.mem_map.1 hw
    rw [forgetW_name]
    exact (h.named.bound d hd).2 z hz
  · intro c hc
    obtain ⟨d, hd, rfl⟩ := List.mem_map.1 hc
    exact h.named.purgedBound d hd
  · intro c hc p hp
    obtain ⟨d, hd, rfl⟩ := List.mem_map.1 hc
    obtain ⟨q, hq, rfl⟩ := List.mem_map.1 hp
    exact h.named.disjoint d hd q hq
  · intro c hc
    obtain ⟨d, hd, rfl⟩ := List.mem_map.1 hc
    exact ⟨forget_cp (h.inv d hd).1, forget_cv (h.inv d hd).2 (hs d hd)⟩
  · intro c hc
    obtain ⟨d, hd, rfl⟩ := List.mem_map.1 hc
    exact ⟨forget_cp (h.gone d hd).cp, (h.gone d hd).fin, (h.gone d hd).sni, (h.gone d hd).path⟩

end

end Verif.Backend
