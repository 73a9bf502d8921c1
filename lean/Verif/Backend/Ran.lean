import Verif.Backend.Just
/-
Where the statuses of workers come from, event by event: a worker runs only if it did or a heartbeat of its cluster
named it, and a worker is closing only if its cluster was asked to stop.
-/
set_option linter.unusedSimpArgs false
set_option linter.unusedVariables false
namespace Verif.Backend

/-- The micro-action gives worker `x` of cluster `n` that status. -/
def Act.gives (n x : Nat) (st : JobStatus) : Act → Prop
  | .updW f => (f n x).status = some st
  | .newW _ r => r.status = st
  | _ => False

/-- A worker's status after some micro-actions is the one it had, or one of them gave it. -/
theorem onAll_status {l : List Act} : ∀ {c : Cluster} {w' : Worker}, w' ∈ (onAll c l).workers →
    (∃ w ∈ c.workers, w.row.name = w'.row.name ∧ w.row.status = w'.row.status) ∨
      ∃ a ∈ l, a.gives c.row.name w'.row.name w'.row.status := by
  induction l with
  | nil => exact fun h => Or.inl ⟨_, h, rfl, rfl⟩
  | cons a l ih =>
    intro c w' hw'
    rcases ih hw' with ⟨w, hw, e1, e2⟩ | ⟨b, hb, h⟩
    · have key : (∃ z ∈ c.workers, z.row.name = w.row.name ∧ z.row.status = w.row.status) ∨ a.gives c.row.name w.row.name w.row.status := by
        cases a with
        | updW f =>
          obtain ⟨z, hz, rfl⟩ := List.mem_map.1 hw
          cases e : (f c.row.name z.row.name).status with
          | none => exact Or.inl ⟨z, hz, rfl, by simp [Act.onWorker, WUpd.app, e]⟩
          | some t =>
            right
            have : (Act.onWorker (.updW f) c.row.name z).row.status = t := by simp [Act.onWorker, WUpd.app, e]
            rw [this]
            exact e
        | putW f =>
          obtain ⟨z, hz, rfl⟩ := List.mem_map.1 hw
          left
          simp only [Act.onWorker]
          split <;> exact ⟨z, hz, rfl, rfl⟩
        | volW m x f =>
          obtain ⟨z, hz, rfl⟩ := List.mem_map.1 hw
          left
          simp only [Act.onWorker]
          split <;> exact ⟨z, hz, rfl, rfl⟩
        | newW n r =>
          simp only [Act.onCluster] at hw
          split at hw
          · rcases List.mem_append.1 hw with hw | hw
            · exact Or.inl ⟨w, hw, rfl, rfl⟩
            · rw [List.mem_singleton] at hw
              subst hw
              exact Or.inr rfl
          · exact Or.inl ⟨w, hw, rfl, rfl⟩
        | updC f => exact Or.inl ⟨w, hw, rfl, rfl⟩
        | newC r => exact Or.inl ⟨w, hw, rfl, rfl⟩
        | purge p => exact Or.inl ⟨w, hw, rfl, rfl⟩
        | putC f => simp only [Act.onCluster] at hw; split at hw <;> exact Or.inl ⟨w, hw, rfl, rfl⟩
        | volC n f => simp only [Act.onCluster] at hw; split at hw <;> exact Or.inl ⟨w, hw, rfl, rfl⟩
      rcases key with ⟨z, hz, e3, e4⟩ | h
      · exact Or.inl ⟨z, hz, e3.trans e1, e4.trans e2⟩
      · exact Or.inr ⟨a, by simp, by rw [← e1, ← e2]; exact h⟩
    · rw [onCluster_name] at h
      exact Or.inr ⟨b, by simp [hb], h⟩

/-- A cluster after some of the micro-actions of an operation was there before, or has no workers. -/
theorem prefix_old {cfg : Cfg} {s : State} (hi : SInv cfg s) {o : Op} {k : Nat} {d : Cluster}
    (hd : d ∈ (s.applyAll ((acts cfg s o).take k)).clusters) :
    (∃ c ∈ s.clusters, d.row.name = c.row.name) ∨ d.workers = [] := by
  by_cases ho : o.plain = true
  · left
    rw [(applyAll_plain s _ ((prefix_sp hi o k).2 ho)).1] at hd
    obtain ⟨x, hx, rfl⟩ := List.mem_map.1 hd
    exact ⟨x, hx, onAll_name _ _⟩
  · cases o with
    | startCluster user mx now =>
      obtain ⟨e1, e2, e3, e4⟩ := start_state hi.named user mx now
      match k with
      | 0 => exact Or.inl ⟨d, hd, rfl⟩
      | 1 =>
        replace hd : d ∈ (s.apply (.newC (newRow s.next user mx now))).clusters := hd
        rw [e1, List.mem_append] at hd
        rcases hd with hd | hd
        · exact Or.inl ⟨d, hd, rfl⟩
        · rw [List.mem_singleton] at hd; right; rw [hd]; rfl
      | k + 2 =>
        have et : (acts cfg s (.startCluster user mx now)).take (k + 2) =
          [.newC (newRow s.next user mx now), putC1 s.next] := by simp [acts, startClusterActs]
        rw [et] at hd
        replace hd : d ∈ ((s.apply (.newC (newRow s.next user mx now))).apply (putC1 s.next)).clusters := hd
        rw [e2, List.mem_append] at hd
        rcases hd with hd | hd
        · exact Or.inl ⟨d, hd, rfl⟩
        · rw [List.mem_singleton] at hd; right; rw [hd]; rfl
    | cleanup now =>
      match k with
      | 0 => exact Or.inl ⟨d, hd, rfl⟩
      | k + 1 =>
        have et : (acts cfg s (.cleanup now)).take (k + 1) = cleanupActs cfg s now := by simp [acts, cleanupActs]
        rw [et] at hd
        exact Or.inl ⟨d, (List.mem_filter.1 hd).1, rfl⟩
    | _ => simp [Op.plain] at ho

/-- The operation of an event that happens, or begins and is interrupted. -/
def Ev.opOf' : Ev → Op
  | .op o => o
  | .crash o _ _ => o

/-- A worker's status after an event is the one it had, or a micro-action of the event's operation gave it. -/
theorem ev_status {cfg : Cfg} {s : State} (hi : SInv cfg s) (e : Ev) {d : Cluster} (hd : d ∈ (s.ev cfg e).clusters)
    {w' : Worker} (hw' : w' ∈ d.workers) : ∃ c ∈ s.clusters, d.row.name = c.row.name ∧
      ((∃ w ∈ c.workers, w.row.name = w'.row.name ∧ w.row.status = w'.row.status) ∨
        ∃ a ∈ acts cfg s e.opOf', a.gives c.row.name w'.row.name w'.row.status) := by
  have hold : ∃ c ∈ s.clusters, d.row.name = c.row.name := by
    cases e with
    | op o =>
      have h : d ∈ (s.applyAll ((acts cfg s o).take (acts cfg s o).length)).clusters := by rw [take_all]; exact hd
      rcases prefix_old hi h with h | h
      · exact h
      · rw [h] at hw'; simp at hw'
    | crash o k now =>
      have sp := (prefix_sp hi o k).1
      simp only [State.ev] at hd
      rw [restart_clusters sp.synced sp.named now] at hd
      obtain ⟨x, hx, rfl⟩ := List.mem_map.1 hd
      rcases prefix_old hi hx with h | h
      · exact h
      · rw [reload_workers, h] at hw'; simp at hw'
  obtain ⟨c, hc, hn⟩ := hold
  refine ⟨c, hc, hn, ?_⟩
  obtain ⟨o, k, ⟨rfl, -, h⟩ | ⟨now, y, rfl, rfl, h⟩⟩ := ev_onAll hi hc hd hn
  · rcases h with rfl | rfl
    · exact onAll_status hw'
    · exact Or.inl ⟨w', hw', rfl, rfl⟩
  · rw [reload_workers] at hw'
    obtain ⟨z, hz, rfl⟩ := List.mem_map.1 hw'
    rcases h with rfl | rfl
    · rcases onAll_status hz with h | ⟨a, ha, h⟩
      · exact Or.inl h
      · exact Or.inr ⟨a, List.mem_of_mem_take ha, h⟩
    · exact Or.inl ⟨z, hz, rfl, rfl⟩

/-- A worker that runs after an event did, or the event is a heartbeat of its cluster that named it. -/
theorem ev_ran {cfg : Cfg} {s : State} (hi : SInv cfg s) (e : Ev) {d : Cluster} (hd : d ∈ (s.ev cfg e).clusters)
    {w' : Worker} (hw' : w' ∈ d.workers) (hr : w'.row.status = .running) :
    (∃ c ∈ s.clusters, c.row.name = d.row.name ∧ ∃ w ∈ c.workers, w.row.name = w'.row.name ∧ w.row.status = .running) ∨
      Reports e.opOf' d.row.name w'.row.name := by
  obtain ⟨c, hc, hn, h⟩ := ev_status hi e hd hw'
  rw [hr] at h
  rcases h with ⟨w, hw, h1, h2⟩ | ⟨a, ha, h⟩
  · exact Or.inl ⟨c, hc, hn.symm, w, hw, h1, h2⟩
  · right
    have hj := acts_just hi _ a ha
    rw [hn]
    cases a with
    | updW f => exact (hj _ _).2.1 h
    | newW n r => have := hj.2.2; simp only [Act.gives] at h; rw [h] at this; simp at this
    | _ => exact h.elim

/-- Workers are closing only in clusters that were asked to stop. -/
def ClosingOk (s : State) : Prop := ∀ c ∈ s.clusters, ∀ w ∈ c.workers, w.row.status = .closing → 5 ≤ c.row.target.n

theorem ev_closing {cfg : Cfg} {s : State} (hi : SInv cfg s) (e : Ev) (hs : ClosingOk s) : ClosingOk (s.ev cfg e) := by
  intro d hd w' hw' hr
  obtain ⟨c, hc, hn, h⟩ := ev_status hi e hd hw'
  rw [hr] at h
  have le : Le c d := by
    obtain ⟨y, hy, l⟩ := (ev_le hi e).1 c hc
    have hi' := ev_inv hi e
    rcases hy with hy | hy
    · rw [cname_inj hi'.named.nodup hd hy (hn.trans l.name.symm)]; exact l
    · exact (hi'.named.disjoint d hd y hy (hn.trans l.name.symm)).elim
  refine (le.tgt ?_).1
  rcases h with ⟨w, hw, h1, h2⟩ | ⟨a, ha, h⟩
  · exact hs c hc w hw h2
  · have hj := acts_just hi _ a ha
    cases a with
    | updW f =>
      obtain ⟨x, hx, h1, h2⟩ := (hj _ _).2.2.1 h
      rw [← cname_inj hi.named.nodup hx hc h1]
      exact h2
    | newW n r => have := hj.2.2; simp only [Act.gives] at h; rw [h] at this; simp at this
    | _ => exact h.elim

theorem run_closing (cfg : Cfg) (evs : List Ev) : ClosingOk (run cfg evs) := by
  unfold run
  have : ∀ s, SInv cfg s → ClosingOk s → ClosingOk (evs.foldl (State.ev cfg) s) := by
    induction evs with
    | nil => exact fun s _ h => h
    | cons e evs ih => exact fun s hi h => ih _ (ev_inv hi e) (ev_closing hi e h)
  exact this _ (sinv_init cfg) (fun c hc => nomatch hc)

/-! ### Marks -/

/-- The micro-action marks worker `x` of cluster `n` as expected to close. -/
def Act.marks (n x : Nat) : Act → Prop
  | .updW f => (f n x).closeExpected = some true
  | .newW _ r => r.closeExpected = true
  | _ => False

/-- A worker that is marked after some micro-actions was, or one of them marked it. -/
theorem onAll_mark {l : List Act} : ∀ {c : Cluster} {w' : Worker}, w' ∈ (onAll c l).workers → w'.row.closeExpected = true →
    (∃ w ∈ c.workers, w.row.name = w'.row.name ∧ w.row.closeExpected = true) ∨ ∃ a ∈ l, a.marks c.row.name w'.row.name := by
  induction l with
  | nil => exact fun h e => Or.inl ⟨_, h, rfl, e⟩
  | cons a l ih =>
    intro c w' hw' hm
    rcases ih hw' hm with ⟨w, hw, e1, e2⟩ | ⟨b, hb, h⟩
    · have key : (∃ z ∈ c.workers, z.row.name = w.row.name ∧ z.row.closeExpected = true) ∨ a.marks c.row.name w.row.name := by
        cases a with
        | updW f =>
          obtain ⟨z, hz, rfl⟩ := List.mem_map.1 hw
          cases e : (f c.row.name z.row.name).closeExpected with
          | none => exact Or.inl ⟨z, hz, rfl, by simpa [Act.onWorker, WUpd.app, e] using e2⟩
          | some t =>
            right
            have : t = true := by simpa [Act.onWorker, WUpd.app, e] using e2
            rw [this] at e
            exact e
        | putW f =>
          obtain ⟨z, hz, rfl⟩ := List.mem_map.1 hw
          left
          simp only [Act.onWorker] at e2 ⊢
          split at e2 <;> (split <;> exact ⟨z, hz, rfl, e2⟩)
        | volW m x f =>
          obtain ⟨z, hz, rfl⟩ := List.mem_map.1 hw
          left
          simp only [Act.onWorker] at e2 ⊢
          split at e2 <;> (split <;> exact ⟨z, hz, rfl, e2⟩)
        | newW n r =>
          simp only [Act.onCluster] at hw
          split at hw
          · rcases List.mem_append.1 hw with hw | hw
            · exact Or.inl ⟨w, hw, rfl, e2⟩
            · rw [List.mem_singleton] at hw
              subst hw
              exact Or.inr e2
          · exact Or.inl ⟨w, hw, rfl, e2⟩
        | updC f => exact Or.inl ⟨w, hw, rfl, e2⟩
        | newC r => exact Or.inl ⟨w, hw, rfl, e2⟩
        | purge p => exact Or.inl ⟨w, hw, rfl, e2⟩
        | putC f => simp only [Act.onCluster] at hw; split at hw <;> exact Or.inl ⟨w, hw, rfl, e2⟩
        | volC n f => simp only [Act.onCluster] at hw; split at hw <;> exact Or.inl ⟨w, hw, rfl, e2⟩
      rcases key with ⟨z, hz, e3, e4⟩ | h
      · exact Or.inl ⟨z, hz, e3.trans e1, e4⟩
      · exact Or.inr ⟨a, by simp, by rw [← e1]; exact h⟩
    · rw [onCluster_name] at h
      exact Or.inr ⟨b, by simp [hb], h⟩

/-- A worker that is marked after an event was, or the event is a heartbeat of its cluster that announced it. -/
theorem ev_marked {cfg : Cfg} {s : State} (hi : SInv cfg s) (e : Ev) {d : Cluster} (hd : d ∈ (s.ev cfg e).clusters)
    {w' : Worker} (hw' : w' ∈ d.workers) (hr : w'.row.closeExpected = true) :
    (∃ c ∈ s.clusters, c.row.name = d.row.name ∧ ∃ w ∈ c.workers, w.row.name = w'.row.name ∧ w.row.closeExpected = true) ∨
      Announces e.opOf' d.row.name w'.row.name := by
  obtain ⟨c, hc, hn, -⟩ := ev_status hi e hd hw'
  have key : (∃ w ∈ c.workers, w.row.name = w'.row.name ∧ w.row.closeExpected = true) ∨
      ∃ a ∈ acts cfg s e.opOf', a.marks c.row.name w'.row.name := by
    obtain ⟨o, k, ⟨rfl, -, h⟩ | ⟨now, y, rfl, rfl, h⟩⟩ := ev_onAll hi hc hd hn
    · rcases h with rfl | rfl
      · exact onAll_mark hw' hr
      · exact Or.inl ⟨w', hw', rfl, hr⟩
    · rw [reload_workers] at hw'
      obtain ⟨z, hz, rfl⟩ := List.mem_map.1 hw'
      rcases h with rfl | rfl
      · rcases onAll_mark hz hr with h | ⟨a, ha, h⟩
        · exact Or.inl h
        · exact Or.inr ⟨a, List.mem_of_mem_take ha, h⟩
      · exact Or.inl ⟨z, hz, rfl, hr⟩
  rcases key with ⟨w, hw, h1, h2⟩ | ⟨a, ha, h⟩
  · exact Or.inl ⟨c, hc, hn.symm, w, hw, h1, h2⟩
  · right
    have hj := acts_just hi _ a ha
    rw [hn]
    cases a with
    | updW f => exact (hj _ _).2.2.2 h
    | newW n r => have := hj.2.1; simp only [Act.marks] at h; rw [h] at this; simp at this
    | _ => exact h.elim

end Verif.Backend
