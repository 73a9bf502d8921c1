import Verif.Fleet.Inv
/-
What a handled heartbeat leaves of the cluster's row; heartbeats that change nothing.
-/
set_option linter.unusedSimpArgs false
set_option linter.unusedVariables false
namespace Verif.Backend

theorem row_on {a : Act} (h : ∀ f, a ≠ .updC f) (c : Cluster) : (a.onCluster c).row = c.row := by
  cases a with
  | updC f => exact (h f rfl).elim
  | newW n r => simp only [Act.onCluster]; split <;> rfl
  | putC f => simp only [Act.onCluster]; split <;> rfl
  | volC n f => simp only [Act.onCluster]; split <;> rfl
  | _ => rfl

theorem row_all {l : List Act} : ∀ {c : Cluster}, (∀ a ∈ l, ∀ f, a ≠ .updC f) → (onAll c l).row = c.row := by
  induction l with
  | nil => exact fun _ => rfl
  | cons a l ih =>
    intro c h
    rw [onAll_cons, ih (fun b hb => h b (by simp [hb])), row_on (h a (by simp))]

theorem onAll_max (l : List Act) : ∀ c : Cluster, (onAll c l).row.maxWorkers = c.row.maxWorkers := by
  induction l with
  | nil => exact fun _ => rfl
  | cons a l ih =>
    intro c
    rw [onAll_cons, ih]
    by_cases h : ∃ f, a = .updC f
    · obtain ⟨f, rfl⟩ := h; rfl
    · rw [row_on (fun f e => h ⟨f, e⟩)]

/-- The count after a handled heartbeat is the one in it, up to the cluster's limit; and if it was another one before, the
cluster is queued. -/
theorem hb_count {c : Cluster} {m : Msg} (now : Int) (ht : c.row.target.n ≤ 3) (hr : hbRaises c m = false) :
    (onAll c (heartbeatActs c m now)).row.count = hbCount c.row.maxWorkers m.count := by
  have ht' : ¬ c.row.target.n > JobStatus.running.n := Nat.not_lt.2 ht
  have ea : heartbeatActs c m now = [.volC c.row.name (fun v => { v with lastHb := some now })] ++
      (hbFirst c m ++ ([.updW (fun k x => if k = c.row.name then hbTarget c m x else {}), putWs c.row.name (hbTargeted c m)] ++
      (if hbNewlyRunning c m = [] then [] else [.volC c.row.name (fun v => { v with failCount := 0 }),
        updWs c.row.name (hbNewlyRunning c m) { status := some .running }]) ++
      [updWs c.row.name (names (hbPick c m .closing)) { closeExpected := some true }])) := by
    simp only [heartbeatActs, if_neg ht', hr, Bool.false_eq_true, if_false, List.append_assoc]
    rfl
  rw [ea, onAll_append, onAll_append, onAll_cons, onAll_nil, volC_on _ _ _ (by rfl)]
  rw [row_all (by
    intro a ha f
    simp only [List.mem_append, List.mem_cons, List.not_mem_nil, or_false] at ha
    rcases ha with ((rfl | rfl) | ha) | rfl
    · simp
    · simp [putWs]
    · split at ha
      · simp at ha
      · simp only [List.mem_cons, List.not_mem_nil, or_false] at ha
        rcases ha with rfl | rfl <;> simp [updWs]
    · simp [updWs])]
  simp only [hbFirst, hbClusterUpdate]
  by_cases hs : c.row.status = .running
  · rw [if_pos hs]
    by_cases hc : hbCount c.row.maxWorkers m.count = c.row.count
    · rw [if_pos hc, onAll_nil]; exact hc.symm
    · rw [if_neg hc]
      simp only [onAll_cons, onAll_nil]
      rw [updC1_on _ _ _ (by rfl), putC1_on _ _ (by rfl)]
      simp [CUpd.app, hc]
  · rw [if_neg hs]
    simp only [onAll_cons, onAll_nil]
    rw [updC1_on _ _ _ (by rfl), putC1_on _ _ (by rfl)]
    by_cases hc : hbCount c.row.maxWorkers m.count = c.row.count
    · simp [CUpd.app, hc]
    · simp [CUpd.app, hc]

/-- A heartbeat that repeats what is known changes only the time at which the cluster was heard. -/
theorem hb_steady {c : Cluster} {m : Msg} (now : Int) (ht : c.row.target.n ≤ 3) (hr : hbRaises c m = false) (hs : c.row.status = .running)
    (hc : hbCount c.row.maxWorkers m.count = c.row.count) (hn : hbNewlyRunning c m = []) (hw : ∀ w ∈ c.workers, hbW c m w = w) :
    onAll c (heartbeatActs c m now) = { c with vol := { c.vol with lastHb := some now } } := by
  have ew := hb_workers now ht hr
  rw [map_id_of hw] at ew
  have ht' : ¬ c.row.target.n > JobStatus.running.n := Nat.not_lt.2 ht
  have ef : hbFirst c m = [] := by simp only [hbFirst, hbClusterUpdate, if_pos hs, if_pos hc]
  have ea : heartbeatActs c m now = .volC c.row.name (fun v => { v with lastHb := some now }) ::
      .updW (fun k x => if k = c.row.name then hbTarget c m x else {}) :: putWs c.row.name (hbTargeted c m) ::
      [updWs c.row.name (names (hbPick c m .closing)) { closeExpected := some true }] := by
    have : heartbeatActs c m now = [.volC c.row.name (fun v => { v with lastHb := some now })] ++
      (hbFirst c m ++ [.updW (fun k x => if k = c.row.name then hbTarget c m x else {}), putWs c.row.name (hbTargeted c m)] ++
      (if hbNewlyRunning c m = [] then [] else [.volC c.row.name (fun v => { v with failCount := 0 }),
        updWs c.row.name (hbNewlyRunning c m) { status := some .running }]) ++
      [updWs c.row.name (names (hbPick c m .closing)) { closeExpected := some true }]) := by
      simp only [heartbeatActs, if_neg ht', hr, Bool.false_eq_true, if_false]
      rfl
    rw [this, ef, if_pos hn]
    rfl
  have e2 : (onAll c (heartbeatActs c m now)).row = c.row ∧
      (onAll c (heartbeatActs c m now)).vol = { c.vol with lastHb := some now } := by
    rw [ea]
    simp only [onAll_cons, onAll_nil]
    rw [volC_on _ _ _ (by rfl)]
    exact ⟨rfl, rfl⟩
  revert ew e2
  generalize onAll c (heartbeatActs c m now) = d
  intro ew e2
  obtain ⟨r, v, ws⟩ := d
  simp only at ew e2
  rw [e2.1, e2.2, ew]

end Verif.Backend
