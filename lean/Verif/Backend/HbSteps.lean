import Verif.Backend.Steps
/-
What a heartbeat does to the workers.
-/
set_option linter.unusedSimpArgs false
set_option linter.unusedVariables false
namespace Verif.Backend

theorem workers_on {a : Act} (h : ∀ n r, a ≠ .newW n r) (c : Cluster) :
    (a.onCluster c).workers = c.workers.map (a.onWorker c.row.name) := by
  have hid : ∀ w ∈ c.workers, (fun w : Worker => w) w = w := fun _ _ => rfl
  cases a with
  | newW n r => exact (h n r rfl).elim
  | updW f => rfl
  | putW f => rfl
  | volW n w f => rfl
  | putC f => simp only [Act.onCluster]; split <;> exact (map_id_of hid).symm
  | volC n f => simp only [Act.onCluster]; split <;> exact (map_id_of hid).symm
  | _ => exact (map_id_of hid).symm

theorem workers_all {l : List Act} : ∀ {c : Cluster}, (∀ a ∈ l, ∀ n r, a ≠ .newW n r) →
    (onAll c l).workers = c.workers.map (fun w => l.foldl (fun w a => a.onWorker c.row.name w) w) := by
  induction l with
  | nil => intro c _; simp [map_id_of]
  | cons a l ih =>
    intro c h
    rw [onAll_cons, ih (fun b hb => h b (by simp [hb])), workers_on (h a (by simp)), onCluster_name, List.map_map]
    rfl

/-- What a heartbeat leaves of a worker. -/
def hbW (c : Cluster) (m : Msg) (w : Worker) : Worker :=
  { row := { w.row with
      target := (hbTarget c m w.row.name).target.getD w.row.target
      status := if w.row.name ∈ hbNewlyRunning c m then .running else w.row.status
      closeExpected := if w.row.name ∈ names (hbPick c m .closing) then true else w.row.closeExpected }
    vol := { w.vol with pending := if w.row.name ∈ hbTargeted c m then true else w.vol.pending } }

theorem hb_workers {c : Cluster} {m : Msg} (now : Int) (ht : c.row.target.n ≤ 3) (hr : hbRaises c m = false) :
    (onAll c (heartbeatActs c m now)).workers = c.workers.map (hbW c m) := by
  rw [workers_all (fun a ha => (hb_quiet c m now a ha).2)]
  refine List.map_congr_left (fun w hw => ?_)
  have ht' : ¬ c.row.target.n > JobStatus.running.n := Nat.not_lt.2 ht
  have ea : heartbeatActs c m now = [.volC c.row.name (fun v => { v with lastHb := some now })] ++
      (hbFirst c m ++ [.updW (fun k x => if k = c.row.name then hbTarget c m x else {}), putWs c.row.name (hbTargeted c m)] ++
      (if hbNewlyRunning c m = [] then [] else [.volC c.row.name (fun v => { v with failCount := 0 }),
        updWs c.row.name (hbNewlyRunning c m) { status := some .running }]) ++
      [updWs c.row.name (names (hbPick c m .closing)) { closeExpected := some true }]) := by
    simp only [heartbeatActs, if_neg ht', hr, Bool.false_eq_true, if_false]
    rfl
  rw [ea]
  have app : (hbTarget c m w.row.name).app w.row = { w.row with target := (hbTarget c m w.row.name).target.getD w.row.target } := by
    rcases hbTarget_cases c m w.row.name with ⟨e, -⟩ | ⟨t, -, e, -⟩ <;> rw [e] <;> rfl
  simp only [List.foldl_append, List.foldl_cons, List.foldl_nil]
  have s0 : Act.onWorker (.volC c.row.name (fun v => { v with lastHb := some now })) c.row.name w = w := rfl
  rw [s0]
  have s01 : (hbFirst c m).foldl (fun w a => Act.onWorker a c.row.name w) w = w := by
    unfold hbFirst
    cases hbClusterUpdate c m <;> rfl
  rw [s01]
  have s1 : Act.onWorker (.updW (fun k x => if k = c.row.name then hbTarget c m x else {})) c.row.name w =
      { w with row := { w.row with target := (hbTarget c m w.row.name).target.getD w.row.target } } := by
    simp only [Act.onWorker, if_true, app]
  rw [s1]
  have s2 : Act.onWorker (putWs c.row.name (hbTargeted c m)) c.row.name
      { w with row := { w.row with target := (hbTarget c m w.row.name).target.getD w.row.target } } =
      { row := { w.row with target := (hbTarget c m w.row.name).target.getD w.row.target }
        vol := { w.vol with pending := if w.row.name ∈ hbTargeted c m then true else w.vol.pending } } := by
    simp only [Act.onWorker, putWs, beq_self_eq_true, Bool.true_and, decide_eq_true_eq]
    split <;> rfl
  rw [s2]
  have s3 : (if hbNewlyRunning c m = [] then ([] : List Act) else [.volC c.row.name (fun v => { v with failCount := 0 }),
      updWs c.row.name (hbNewlyRunning c m) { status := some .running }]).foldl (fun w a => Act.onWorker a c.row.name w)
      { row := { w.row with target := (hbTarget c m w.row.name).target.getD w.row.target }
        vol := { w.vol with pending := if w.row.name ∈ hbTargeted c m then true else w.vol.pending } } =
      { row := { w.row with
          target := (hbTarget c m w.row.name).target.getD w.row.target
          status := if w.row.name ∈ hbNewlyRunning c m then .running else w.row.status }
        vol := { w.vol with pending := if w.row.name ∈ hbTargeted c m then true else w.vol.pending } } := by
    by_cases e : hbNewlyRunning c m = []
    · simp [e]
    · rw [if_neg e]
      simp only [List.foldl_cons, List.foldl_nil, Act.onWorker, updWs, true_and]
      split <;> simp [WUpd.app]
  rw [s3]
  simp only [Act.onWorker, updWs, true_and, hbW]
  split <;> simp [WUpd.app]

/-! ### Who is asked to stop -/

theorem hbClass_closed {m : Msg} {w : WRow} : hbClass m w = .closed ↔
    ¬ 5 ≤ w.status.n ∧ w.name ∉ m.closing ∧ w.name ∉ m.active ∧ w.name ∈ m.closed := by
  simp only [hbClass]
  change (if 5 ≤ w.status.n then HbClass.finished else _) = _ ↔ _
  repeat' split
  all_goals simp_all

theorem hbClass_waiting {m : Msg} {w : Worker} : (hbClass m w.row = .created ∨ hbClass m w.row = .submitted) ↔ w.waiting m = true := by
  simp only [hbClass, Worker.waiting, Msg.mentions, Bool.and_eq_true, Bool.or_eq_true, decide_eq_true_eq, Bool.not_eq_true',
    decide_eq_false_iff_not, not_or]
  generalize w.row.status = s
  cases s <;> simp [JobStatus.n] <;> repeat' split
  all_goals simp_all

theorem hb_target_changed {c : Cluster} {m : Msg} {w : Worker} (hp : (names c.workers).Nodup) (hw : w ∈ c.workers)
    (h : (hbW c m w).row.target ≠ w.row.target) :
    (5 ≤ (hbW c m w).row.target.n) ∧
    ((¬ 5 ≤ w.row.status.n ∧ w.row.name ∉ m.closing ∧ w.row.name ∉ m.active ∧ w.row.name ∈ m.closed) ∨
     w.waiting m = true ∧ w ∈ hbToStop c m) := by
  simp only [hbW] at h ⊢
  rcases hbTarget_cases c m w.row.name with ⟨e, -⟩ | ⟨t, h5, e, hm⟩
  · rw [e] at h; simp at h
  · rw [e]
    refine ⟨h5, ?_⟩
    simp only [hbTargeted, List.mem_append] at hm
    rcases hm with hm | hm
    · obtain ⟨x, hx, e'⟩ := List.mem_map.1 hm
      obtain ⟨hx, hc⟩ := mem_hbPick.1 hx
      rw [name_inj hp hx hw e'] at hc
      exact Or.inl (hbClass_closed.1 hc)
    · obtain ⟨x, hx, e'⟩ := List.mem_map.1 hm
      have hs := hbToStop_sub hx
      have ee := name_inj hp hs.1 hw e'
      subst ee
      exact Or.inr ⟨hbClass_waiting.1 hs.2, hx⟩

theorem names_nodup_filter {ws : List Worker} (h : (names ws).Nodup) (p : Worker → Bool) : (names (ws.filter p)).Nodup :=
  h.sublist (List.Sublist.map _ List.filter_sublist)

theorem workers_nodup {ws : List Worker} (h : (names ws).Nodup) : ws.Nodup := by
  unfold names at h
  exact List.Pairwise.of_map _ (fun a b hab e => hab (by rw [e])) h

/-- The waiting workers, in the order in which they are stopped. -/
theorem pend_perm {c : Cluster} (hp : (names c.workers).Nodup) (m : Msg) :
    (hbPick c m .created ++ hbPick c m .submitted).Perm (c.workers.filter (Worker.waiting m)) := by
  have nd := workers_nodup hp
  refine (List.perm_ext_iff_of_nodup ?_ (nd.filter _)).2 ?_
  · refine List.nodup_append.2 ⟨nd.filter _, nd.filter _, ?_⟩
    intro a ha b hb e
    subst e
    rw [mem_hbPick] at ha hb
    rw [ha.2] at hb
    simp at hb
  · intro a
    simp only [List.mem_append, mem_hbPick, List.mem_filter, ← hbClass_waiting]
    constructor
    · rintro (⟨h1, h2⟩ | ⟨h1, h2⟩)
      · exact ⟨h1, Or.inl h2⟩
      · exact ⟨h1, Or.inr h2⟩
    · rintro ⟨h1, h2 | h2⟩
      · exact Or.inl ⟨h1, h2⟩
      · exact Or.inr ⟨h1, h2⟩

/-- The number of waiting workers that are left. -/
theorem left_length {c : Cluster} (hp : (names c.workers).Nodup) (m : Msg)
    (ha : ∀ w ∈ c.workers, w.waiting m = true → ¬ w.row.target.finished) :
    ((c.workers.filter (Worker.waiting m)).filter (fun w => decide (¬ (hbW c m w).row.target.finished))).length +
      (hbToStop c m).length = (c.workers.filter (Worker.waiting m)).length := by
  have nd := workers_nodup hp
  have key (w : Worker) (hw : w ∈ c.workers.filter (Worker.waiting m)) :
      decide (¬ (hbW c m w).row.target.finished) = !decide (w ∈ hbToStop c m) := by
    obtain ⟨hw, hwt⟩ := List.mem_filter.1 hw
    have hk := ha w hw hwt
    by_cases hm : w ∈ hbToStop c m
    · have : hbTarget c m w.row.name = { target := some .stopped } := by
        simp only [hbTarget]
        rw [if_pos]
        right
        exact List.mem_map.2 ⟨w, hm, rfl⟩
      simp only [hm, decide_true, Bool.not_true, decide_eq_false_iff_not, Decidable.not_not]
      simp [hbW, this, JobStatus.finished]
    · simp only [hm, decide_false, Bool.not_false, decide_eq_true_eq]
      intro hf
      by_cases hch : (hbW c m w).row.target = w.row.target
      · rw [hch] at hf; exact hk hf
      · rcases (hb_target_changed hp hw hch).2 with h | h
        · simp only [Worker.waiting, Bool.and_eq_true, Bool.not_eq_true', decide_eq_false_iff_not] at hwt
          exact hwt.2 (Or.inr (Or.inr h.2.2.2))
        · exact hm h.2
  have hsub : (hbToStop c m).Nodup := by
    simp only [hbToStop]
    split
    · exact ((pend_perm hp m).nodup_iff.2 (nd.filter _)).sublist (List.take_sublist _ _)
    · exact List.nodup_nil
  have hmem (w : Worker) : w ∈ hbToStop c m → w ∈ c.workers.filter (Worker.waiting m) := by
    intro h
    have := hbToStop_sub h
    exact List.mem_filter.2 ⟨this.1, hbClass_waiting.1 this.2⟩
  have ndw := nd.filter (Worker.waiting m)
  generalize c.workers.filter (Worker.waiting m) = ws at key hmem ndw
  rw [List.filter_congr key]
  have h2 : (ws.filter (fun w => decide (w ∈ hbToStop c m))).length = (hbToStop c m).length := by
    refine List.Perm.length_eq ((List.perm_ext_iff_of_nodup (ndw.filter _) hsub).2 ?_)
    intro a
    simp only [List.mem_filter, decide_eq_true_eq]
    exact ⟨fun h => h.2, fun h => ⟨hmem a h, h⟩⟩
  have h3 : ∀ l : List Worker, (l.filter (fun w => !decide (w ∈ hbToStop c m))).length +
      (l.filter (fun w => decide (w ∈ hbToStop c m))).length = l.length := by
    intro l
    induction l with
    | nil => rfl
    | cons x l ih =>
      simp only [List.filter_cons, List.length_cons]
      by_cases hx : x ∈ hbToStop c m <;> simp [hx] <;> omega
  have := h3 ws
  omega

end Verif.Backend
