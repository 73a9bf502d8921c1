import Verif.Backend.Reason
/-
What justifies a change of a worker: which workers an operation may change the status of, mark as expected to close,
or begin and end calls for; and that only a heartbeat makes a worker run.
-/
set_option linter.unusedSimpArgs false
set_option linter.unusedVariables false
namespace Verif.Backend

/-- Worker `x` of cluster `n` is known and is not finished, or a call for it is in flight. -/
def Busy (s : State) (n x : Nat) : Prop :=
  ∃ c ∈ s.clusters, c.row.name = n ∧ ∃ w ∈ c.workers, w.row.name = x ∧ (w.row.status.n < 5 ∨ w.vol.fl ≠ .idle)

/-- Operation `o` is a heartbeat of cluster `n` that names the worker as active or closing. -/
def Reports (o : Op) (n x : Nat) : Prop := ∃ m now, o = .heartbeat n m now ∧ (x ∈ m.active ∨ x ∈ m.closing)

/-- Operation `o` is a heartbeat of cluster `n` that announces the worker as closing. -/
def Announces (o : Op) (n x : Nat) : Prop := ∃ m now, o = .heartbeat n m now ∧ x ∈ m.closing

/-- Cluster `n` is known and was asked to stop. -/
def Ending (s : State) (n : Nat) : Prop := ∃ c ∈ s.clusters, c.row.name = n ∧ 5 ≤ c.row.target.n

/-- The micro-action changes only what it may, in state `s` and as a part of operation `o`. -/
def Act.just (s : State) (o : Op) : Act → Prop
  | .updW f => ∀ n x, ((f n x).closeExpected ≠ none ∨ (f n x).status ≠ none → Busy s n x) ∧
      ((f n x).status = some .running → Reports o n x) ∧
      ((f n x).status = some .closing → Ending s n) ∧
      ((f n x).closeExpected = some true → Announces o n x)
  | .volW n x f => Busy s n x ∨ ∀ v, (f v).fl = v.fl
  | .newW n r => s.next ≤ r.name ∧ r.closeExpected = false ∧ r.status = .created
  | _ => True

/-- All micro-actions of the list do. -/
def Just (s : State) (o : Op) (l : List Act) : Prop := ∀ a ∈ l, a.just s o

section
variable {s : State} {o : Op}

theorem Just.nil : Just s o [] := fun _ h => nomatch h
theorem Just.cons {a : Act} {l : List Act} (h : a.just s o) (h' : Just s o l) : Just s o (a :: l) := by
  intro b hb
  rcases List.mem_cons.1 hb with rfl | hb
  · exact h
  · exact h' b hb
theorem Just.append {l l' : List Act} (h : Just s o l) (h' : Just s o l') : Just s o (l ++ l') := by
  intro b hb
  rcases List.mem_append.1 hb with hb | hb
  · exact h b hb
  · exact h' b hb
theorem Just.ite {p : Prop} [Decidable p] {l l' : List Act} (h : p → Just s o l) (h' : ¬ p → Just s o l') :
    Just s o (if p then l else l') := by
  split
  · rename_i e; exact h e
  · rename_i e; exact h' e

theorem ju_updW1 {m y : Nat} {u : WUpd} (h : u.closeExpected ≠ none ∨ u.status ≠ none → Busy s m y)
    (h' : u.status = some .running → Reports o m y) (h'' : u.status = some .closing → Ending s m)
    (h3 : u.closeExpected = some true → Announces o m y := by intro h; simp at h) : (updW1 m y u).just s o := by
  intro n x
  by_cases e : n = m ∧ x = y
  · simp only [if_pos e]
    obtain ⟨rfl, rfl⟩ := e
    exact ⟨h, h', h'', h3⟩
  · simp only [if_neg e]
    exact ⟨fun h => (by simp at h), fun h => (by simp at h), fun h => (by simp at h), fun h => (by simp at h)⟩

theorem ju_updWs {m : Nat} {ws : List Nat} {u : WUpd} (h : u.closeExpected ≠ none ∨ u.status ≠ none → ∀ y ∈ ws, Busy s m y)
    (h' : u.status = some .running → ∀ y ∈ ws, Reports o m y) (h'' : u.status = some .closing → Ending s m)
    (h3 : u.closeExpected = some true → ∀ y ∈ ws, Announces o m y := by intro h; simp at h) : (updWs m ws u).just s o := by
  intro n x
  by_cases e : n = m ∧ x ∈ ws
  · simp only [if_pos e]
    obtain ⟨rfl, e⟩ := e
    exact ⟨fun hh => h hh x e, fun hh => h' hh x e, h'', fun hh => h3 hh x e⟩
  · simp only [if_neg e]
    exact ⟨fun h => (by simp at h), fun h => (by simp at h), fun h => (by simp at h), fun h => (by simp at h)⟩

theorem ju_if {p : Nat → Nat → Prop} [∀ a b, Decidable (p a b)] {t : JobStatus} :
    (Act.updW (fun k y => if p k y then { target := some t } else {})).just s o := by
  intro n x
  dsimp only
  split
  · exact ⟨fun h => (by simp at h), fun h => (by simp at h), fun h => (by simp at h), fun h => (by simp at h)⟩
  · exact ⟨fun h => (by simp at h), fun h => (by simp at h), fun h => (by simp at h), fun h => (by simp at h)⟩

theorem ju_create {m : Nat} {now : Int} : ∀ {k next : Nat}, s.next ≤ next → Just s o (createWorkers m next now k)
  | 0, _, _ => .nil
  | k + 1, next, h => .cons ⟨h, rfl, rfl⟩ (.cons trivial (ju_create (by omega)))

theorem ju_stopped {c : Cluster} (hc : c ∈ s.clusters) (now : Int) : Just s o (stoppedActs c now) := by
  refine .cons (ju_updWs (fun _ y hy => ?_) (fun h => by simp at h) (fun h => by simp at h)) (.cons trivial (.cons trivial .nil))
  obtain ⟨w, hw, rfl⟩ := List.mem_map.1 hy
  obtain ⟨hw, h⟩ := List.mem_filter.1 hw
  exact ⟨c, hc, rfl, w, hw, rfl, Or.inl (of_decide_eq_true h)⟩

theorem ju_wstopped {cfg : Cfg} {c : Cluster} {w : WRow} {now : Int} (h : 5 ≤ w.target.n) (hb : Busy s c.row.name w.name) :
    Just s o (workerStoppedActs cfg c w now) := by
  refine .append (.cons (ju_updW1 (fun _ => hb) (fun e => ?_) (fun e => ?_)) .nil) (.ite (fun _ => .cons trivial .nil) (fun _ => .nil)) <;>
  · simp at e
    rw [e] at h
    simp at h

theorem ju_reconcileC {cfg : Cfg} {c : Cluster} (hc : c ∈ s.clusters) {now : Int} : Just s o (reconcileClusterActs cfg s.next c now) := by
  simp only [reconcileClusterActs]
  refine .ite (fun _ => .nil) (fun _ => .ite (fun _ => .ite (fun _ => .ite (fun _ => .ite (fun _ => .cons trivial .nil)
    (fun _ => ju_stopped hc now)) (fun _ => .nil)) (fun _ => ?_)) (fun _ => .ite (fun _ => .ite (fun _ => .cons trivial .nil)
    (fun _ => .append (.ite (fun _ => .cons trivial (.cons trivial .nil)) (fun _ => .nil))
      (.ite (fun _ => .append (.cons trivial .nil) ?_) (fun _ => .nil)))) (fun _ => .nil)))
  · refine .append (.append (.cons (ju_updWs (fun h => by simp at h) (fun h => by simp at h) (fun h => by simp at h)) (.cons trivial (.cons trivial .nil)))
      (.ite (fun _ => .cons trivial .nil) (fun _ => .nil))) (.cons trivial .nil)
  · exact .ite (fun _ => .cons trivial (.cons trivial .nil)) (fun _ => ju_create (Nat.le_refl _))

theorem ju_reconcileW {cfg : Cfg} {c : Cluster} (hc : c ∈ s.clusters) {w : Worker} (hw : w ∈ c.workers) {now : Int}
    (ht : w.row.target.n = 4 → 5 ≤ c.row.target.n) : Just s o (reconcileWorkerActs cfg c w.row now) := by
  simp only [reconcileWorkerActs]
  refine .ite (fun _ => .nil) (fun h5 => ?_)
  have hb : Busy s c.row.name w.row.name := ⟨c, hc, rfl, w, hw, rfl, Or.inl (by simp at h5; omega)⟩
  refine .ite (fun h4 => .append (.ite (fun _ => .nil)
    (fun _ => .cons (ju_updW1 (fun _ => hb) (fun h => by simp at h) (fun _ => ⟨c, hc, rfl, ht (by rw [h4]; rfl)⟩)) .nil))
    (.ite (fun _ => .cons trivial .nil) (fun _ => .nil))) (fun _ => .ite (fun ht => .ite (fun _ => .cons (Or.inl hb) (.cons trivial .nil))
    (fun _ => ju_wstopped (by rcases ht with h | h <;> simp [h]) hb)) (fun _ => .ite (fun e => .cons (Or.inl hb) (.cons trivial .nil)) (fun _ => .nil)))

end

/-- Operations change only what they may. -/
theorem acts_just {cfg : Cfg} {s : State} (hi : SInv cfg s) (o : Op) : Just s o (acts cfg s o) := by
  cases o with
  | startCluster user mx now => exact .cons trivial (.cons trivial .nil)
  | stopCluster m f =>
    simp only [acts]
    split
    · exact .nil
    · exact .ite (fun _ => .cons trivial (.cons trivial .nil)) (fun _ => .nil)
  | heartbeat m msg now =>
    simp only [acts]
    split
    · exact .nil
    · rename_i c hc
      obtain ⟨hcm, hcn⟩ := sfind_spec hc
      simp only [heartbeatActs]
      have fin {w : Worker} {k : HbClass} (hw : w ∈ hbPick c msg k) (hk : k ≠ .finished) : w ∈ c.workers ∧ w.row.status.n < 5 := by
        obtain ⟨hw, h⟩ := List.mem_filter.1 hw
        refine ⟨hw, Nat.lt_of_not_le (fun h5 => hk ?_)⟩
        have h := of_decide_eq_true h
        rw [← h, hbClass, if_pos (by simpa using h5)]
      have cls {w : Worker} (hw : w ∈ hbPick c msg .closing) : w.row.name ∈ msg.closing := by
        have h := of_decide_eq_true (List.mem_filter.1 hw).2
        simp only [hbClass] at h
        repeat' split at h
        all_goals first | assumption | simp at h
      have act {w : Worker} (hw : w ∈ hbPick c msg .active) : w.row.name ∈ msg.active := by
        have h := of_decide_eq_true (List.mem_filter.1 hw).2
        simp only [hbClass] at h
        repeat' split at h
        all_goals first | assumption | simp at h
      refine .ite (fun _ => .nil) (fun h3 => .append (.cons trivial .nil) (.ite (fun _ => .nil)
        (fun _ => .append (.append (.append ?_ (.cons ?_ (.cons trivial .nil))) (.ite (fun _ => .nil)
          (fun _ => .cons trivial (.cons (ju_updWs ?_ ?_ (fun h => by simp at h)) .nil)))) (.cons (ju_updWs ?_ (fun h => by simp at h) (fun h => by simp at h) ?_) .nil))))
      · split
        · exact .nil
        · exact .cons trivial (.cons trivial .nil)
      · intro n x
        dsimp only
        simp only [hbTarget]
        repeat' split
        all_goals exact ⟨fun h => (by simp at h), fun h => (by simp at h), fun h => (by simp at h), fun h => (by simp at h)⟩
      · intro _ y hy
        obtain ⟨w, hw, rfl⟩ := List.mem_map.1 hy
        rcases List.mem_append.1 (List.mem_filter.1 hw).1 with h | h
        · exact ⟨c, hcm, rfl, w, (fin h (by decide)).1, rfl, Or.inl (fin h (by decide)).2⟩
        · exact ⟨c, hcm, rfl, w, (fin h (by decide)).1, rfl, Or.inl (fin h (by decide)).2⟩
      · intro _ y hy
        obtain ⟨w, hw, rfl⟩ := List.mem_map.1 hy
        refine ⟨msg, now, by rw [hcn], ?_⟩
        rcases List.mem_append.1 (List.mem_filter.1 hw).1 with h | h
        · exact Or.inr (cls h)
        · exact Or.inl (act h)
      · intro _ y hy
        obtain ⟨w, hw, rfl⟩ := List.mem_map.1 hy
        exact ⟨c, hcm, rfl, w, (fin hw (by decide)).1, rfl, Or.inl (fin hw (by decide)).2⟩
      · intro _ y hy
        obtain ⟨w, hw, rfl⟩ := List.mem_map.1 hy
        exact ⟨msg, now, by rw [hcn], cls hw⟩
  | shutdown => exact .cons trivial (.cons trivial .nil)
  | checkTimeouts now =>
    exact .ite (fun _ => .nil) (fun _ => .cons trivial (.cons trivial (.cons ju_if (.cons trivial .nil))))
  | checkClusters => exact .nil
  | checkWorkers => exact .nil
  | checkClustersEnd statuses =>
    simp only [acts]
    split
    · exact .nil
    · exact .cons trivial (.cons trivial .nil)
  | checkWorkersEnd statuses =>
    simp only [acts]
    split
    · exact .nil
    · refine .append (.append (.cons ju_if .nil) (fun a ha => ?_)) (.cons trivial .nil)
      obtain ⟨p, -, rfl⟩ := List.mem_map.1 ha
      trivial
  | cleanup now => exact .cons trivial .nil
  | getC m now =>
    simp only [acts]
    split
    · exact .nil
    · rename_i c hc
      exact .ite (fun _ => .cons trivial (ju_reconcileC (sfind_spec hc).1)) (fun _ => .nil)
  | getW m y now =>
    simp only [acts]
    split
    · exact .nil
    · rename_i c hc
      split
      · exact .nil
      · rename_i z hz
        exact .ite (fun _ => .cons (Or.inr (fun _ => rfl)) (ju_reconcileW (sfind_spec hc).1 (find_spec hz).1
          (fun e => (((hi.inv c (sfind_spec hc).1).1.ws z (find_spec hz).1).tclo e).2))) (fun _ => .nil)
  | yieldC m st =>
    simp only [acts]
    split
    · exact .nil
    · exact .ite (fun _ => .cons trivial .nil) (fun _ => .nil)
  | yieldW m y st =>
    simp only [acts]
    split
    · exact .nil
    · split
      · exact .nil
      · exact .ite (fun _ => .cons (ju_updW1 (fun h => by simp at h) (fun h => by simp at h) (fun h => by simp at h)) .nil) (fun _ => .nil)
  | endStartC m ok =>
    simp only [acts]
    split
    · exact .nil
    · exact .ite (fun _ => .append (.ite (fun _ => .cons trivial .nil) (fun _ => .cons trivial (.cons trivial .nil)))
        (.cons trivial .nil)) (fun _ => .nil)
  | endStopC m now =>
    simp only [acts]
    split
    · exact .nil
    · rename_i c hc
      exact .ite (fun _ => .append (.append (.cons trivial .nil) (ju_stopped (sfind_spec hc).1 now)) (.cons trivial .nil)) (fun _ => .nil)
  | endStartW m y ok =>
    simp only [acts]
    split
    · exact .nil
    · rename_i c hc
      split
      · exact .nil
      · rename_i z hz
        refine .ite (fun hf => ?_) (fun _ => .nil)
        have hb : Busy s m y := ⟨c, (sfind_spec hc).1, (sfind_spec hc).2, z, (find_spec hz).1, (find_spec hz).2, Or.inr (by rw [hf]; decide)⟩
        exact .append (.ite (fun _ => .cons (ju_updW1 (fun _ => hb) (fun h => by simp at h) (fun h => by simp at h)) .nil)
          (fun _ => .cons (ju_updW1 (fun _ => hb) (fun h => by simp at h) (fun h => by simp at h)) (.cons trivial (.cons trivial .nil))))
          (.cons trivial (.cons (Or.inl hb) .nil))
  | endStopW m y now =>
    simp only [acts]
    split
    · exact .nil
    · rename_i c hc
      split
      · exact .nil
      · rename_i z hz
        refine .ite (fun hf => ?_) (fun _ => .nil)
        have hb : Busy s c.row.name z.row.name := ⟨c, (sfind_spec hc).1, rfl, z, (find_spec hz).1, rfl, Or.inr (by rw [hf]; decide)⟩
        exact .append (ju_wstopped ((((hi.inv c (sfind_spec hc).1).2).ws z (find_spec hz).1).flT hf).1 hb) (.cons (Or.inl hb) .nil)

end Verif.Backend
