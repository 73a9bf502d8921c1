import Verif.Backend.Facts
/-
When every cluster has a status, and how a stop completes.
-/
set_option linter.unusedSimpArgs false
set_option linter.unusedVariables false
namespace Verif.Backend

theorem modelStatus_none {bulk : Bool} {c : Cluster} (h : CP bulk c) :
    c.modelStatus = none ↔ 5 ≤ c.row.status.n ∧ c.row.target ≠ c.row.status := by
  have h1 := h.tgt
  have h2 := h.clo
  unfold Cluster.modelStatus
  generalize c.row.status = s at *
  generalize c.row.target = t at *
  cases s <;> cases t <;> simp [statusMap] at *

/-- A finished cluster has the status it was asked to have. -/
def Agrees (c : Cluster) : Prop := 5 ≤ c.row.status.n → c.row.target = c.row.status

/-- The cluster's row is left alone. -/
def Act.sameRow (n : Nat) : Act → Prop
  | .updC f => f n = {}
  | _ => True

theorem sameRow_on {a : Act} {c : Cluster} (h : a.sameRow c.row.name) : (a.onCluster c).row = c.row := by
  cases a with
  | updC f =>
    simp only [Act.sameRow] at h
    simp [Act.onCluster, h, CUpd.app]
  | newW n r => simp only [Act.onCluster]; split <;> rfl
  | putC f => simp only [Act.onCluster]; split <;> rfl
  | volC n f => simp only [Act.onCluster]; split <;> rfl
  | _ => rfl

theorem sameRow_all {l : List Act} : ∀ {c : Cluster}, (∀ a ∈ l, a.sameRow c.row.name) → (onAll c l).row = c.row := by
  induction l with
  | nil => intro c _; rfl
  | cons a l ih =>
    intro c h
    have e := sameRow_on (h a (by simp))
    rw [onAll_cons, ih (by rw [e]; exact fun b hb => h b (by simp [hb])), e]

/-- The micro-action does not set a final status for the cluster. -/
def Act.early (n : Nat) : Act → Prop
  | .updC f => ∀ s, (f n).status = some s → s.n < 5
  | _ => True

theorem early_on {a : Act} {c : Cluster} (h : a.early c.row.name) (h5 : c.row.status.n < 5) :
    (a.onCluster c).row.status.n < 5 ∧ (a.onCluster c).row.name = c.row.name := by
  cases a with
  | updC f =>
    simp only [Act.early] at h
    simp only [Act.onCluster, CUpd.app]
    cases hs : (f c.row.name).status with
    | none => simpa [hs] using h5
    | some s => simpa [hs] using h s hs
  | newW n r => simp only [Act.onCluster]; split <;> exact ⟨h5, rfl⟩
  | putC f => simp only [Act.onCluster]; split <;> exact ⟨h5, rfl⟩
  | volC n f => simp only [Act.onCluster]; split <;> exact ⟨h5, rfl⟩
  | _ => exact ⟨h5, rfl⟩

theorem early_all {l : List Act} : ∀ {c : Cluster}, (∀ a ∈ l, a.early c.row.name) → c.row.status.n < 5 → (onAll c l).row.status.n < 5 := by
  induction l with
  | nil => intro c _ h; exact h
  | cons a l ih =>
    intro c h h5
    have e := early_on (h a (by simp)) h5
    rw [onAll_cons]
    exact ih (by rw [e.2]; exact fun b hb => h b (by simp [hb])) e.1

theorem agrees_same {l : List Act} {c : Cluster} (h : ∀ a ∈ l, a.sameRow c.row.name) (ha : Agrees c) (k : Nat) :
    Agrees (onAll c (l.take k)) := by
  unfold Agrees
  rw [sameRow_all (fun a hm => h a (List.mem_of_mem_take hm))]
  exact ha

theorem agrees_early {l : List Act} {c : Cluster} (h : ∀ a ∈ l, a.early c.row.name) (h5 : c.row.status.n < 5) (k : Nat) :
    Agrees (onAll c (l.take k)) := by
  intro h'
  have := early_all (l := l.take k) (fun a hm => h a (List.mem_of_mem_take hm)) h5
  omega

/-- Leaves the row of a finished cluster alone, and does not finish an unfinished one. -/
def Act.calm (c : Cluster) (a : Act) : Prop :=
  (5 ≤ c.row.status.n → a.sameRow c.row.name) ∧ (c.row.status.n < 5 → a.early c.row.name)

/-- All micro-actions do. -/
def Calm (c : Cluster) (l : List Act) : Prop := ∀ a ∈ l, a.calm c

theorem Calm.nil (c : Cluster) : Calm c [] := fun _ h => nomatch h
theorem Calm.cons {c : Cluster} {a : Act} {l : List Act} (h : a.calm c) (h' : Calm c l) : Calm c (a :: l) := by
  intro b hb
  rcases List.mem_cons.1 hb with rfl | hb
  · exact h
  · exact h' b hb
theorem Calm.append {c : Cluster} {l l' : List Act} (h : Calm c l) (h' : Calm c l') : Calm c (l ++ l') := by
  intro b hb
  rcases List.mem_append.1 hb with hb | hb
  · exact h b hb
  · exact h' b hb
theorem Calm.ite {c : Cluster} {p : Prop} [Decidable p] {l l' : List Act} (h : p → Calm c l) (h' : ¬ p → Calm c l') :
    Calm c (if p then l else l') := by
  split
  · exact h (by assumption)
  · exact h' (by assumption)

theorem calm_of {c : Cluster} {a : Act} (h : ∀ f, a ≠ .updC f) : a.calm c := by
  cases a with
  | updC f => exact (h f rfl).elim
  | _ => exact ⟨fun _ => trivial, fun _ => trivial⟩

theorem calm_updC {c : Cluster} {f : Nat → CUpd} (h : f c.row.name = {} ∨ c.row.status.n < 5 ∧ ∀ s, (f c.row.name).status = some s → s.n < 5) :
    (Act.updC f).calm c := by
  rcases h with h | ⟨h5, h⟩
  · exact ⟨fun _ => h, fun _ => by simp [Act.early, h]⟩
  · exact ⟨fun e => by omega, fun _ => h⟩

theorem calm_updC1 {c : Cluster} {n : Nat} {u : CUpd} (h : c.row.name = n → c.row.status.n < 5 ∧ ∀ s, u.status = some s → s.n < 5) :
    (updC1 n u).calm c := by
  refine calm_updC ?_
  by_cases e : c.row.name = n
  · right; simpa [e] using h e
  · left; simp [e]

theorem Calm.agrees {c : Cluster} {l : List Act} (h : Calm c l) (ha : Agrees c) (k : Nat) : Agrees (onAll c (l.take k)) := by
  by_cases h5 : 5 ≤ c.row.status.n
  · exact agrees_same (fun a hm => (h a hm).1 h5) ha k
  · exact agrees_early (fun a hm => (h a hm).2 (by omega)) (by omega) k

theorem create_calm (c : Cluster) (n : Nat) (now : Int) : ∀ (k next : Nat), Calm c (createWorkers n next now k)
  | 0, _ => .nil c
  | k + 1, next => .cons (calm_of (by intros; simp)) (.cons (calm_of (by intros; simp [putWs])) (create_calm c n now k (next + 1)))

theorem reconcileC_calm {cfg : Cfg} {c d : Cluster} (hx : d.row.name = c.row.name → d = c) (next : Nat) (now : Int) :
    Calm d (reconcileClusterActs cfg next c now) := by
  simp only [reconcileClusterActs]
  refine .ite (fun _ => .nil _) (fun h5 => .ite (fun _ => .ite (fun h4 => .ite (fun _ => .ite (fun _ => ?_) (fun h1 => ?_)) (fun _ => .nil _)) (fun _ => ?_))
    (fun _ => .ite (fun _ => .ite (fun _ => ?_) (fun _ => .append (.ite (fun _ => ?_) (fun _ => .nil _)) (.ite (fun _ => .append ?_ ?_) (fun _ => .nil _)))) (fun _ => .nil _)))
  all_goals have h5 : c.row.status.n < 5 := Nat.lt_of_not_le h5
  · exact .cons (calm_of (by intros; simp)) (.nil _)
  · exact absurd (show 1 < c.row.status.n by rw [h4]; simp) h1
  · refine .append (.append (.cons (calm_of (by intros; simp [updWs])) (.cons (calm_of (by intros; simp [putWs])) (.cons (calm_updC1 ?_) (.nil _))))
      (.ite (fun _ => .cons (calm_of (by intros; simp [putC1])) (.nil _)) (fun _ => .nil _))) (.cons (calm_of (by intros; simp)) (.nil _))
    intro e; rw [hx e]; exact ⟨h5, by simp⟩
  · exact .cons (calm_of (by intros; simp)) (.nil _)
  · refine .cons (calm_updC1 ?_) (.cons (calm_of (by intros; simp)) (.nil _))
    intro e; rw [hx e]; exact ⟨h5, by simp⟩
  · exact .cons (calm_of (by intros; simp)) (.nil _)
  · refine .ite (fun _ => .cons (calm_updC1 ?_) (.cons (calm_of (by intros; simp [putC1])) (.nil _))) (fun _ => create_calm _ _ _ _ _)
    intro e; rw [hx e]; exact ⟨h5, by simp⟩

theorem wstopped_calm (cfg : Cfg) (c d : Cluster) (w : WRow) (now : Int) : Calm d (workerStoppedActs cfg c w now) :=
  .append (.cons (calm_of (by intros; simp [updW1])) (.nil _)) (.ite (fun _ => .cons (calm_of (by intros; simp [putC1])) (.nil _)) (fun _ => .nil _))

theorem reconcileW_calm (cfg : Cfg) (c d : Cluster) (w : WRow) (now : Int) : Calm d (reconcileWorkerActs cfg c w now) := by
  simp only [reconcileWorkerActs]
  refine .ite (fun _ => .nil _) (fun _ => .ite (fun _ => .append (.ite (fun _ => .nil _) (fun _ => .cons (calm_of (by intros; simp [updW1])) (.nil _)))
    (.ite (fun _ => .cons (calm_of (by intros; simp [putC1])) (.nil _)) (fun _ => .nil _)))
    (fun _ => .ite (fun _ => .ite (fun _ => ?_) (fun _ => wstopped_calm _ _ _ _ _)) (fun _ => .ite (fun _ => ?_) (fun _ => .nil _))))
  · exact .cons (calm_of (by intros; simp)) (.cons (calm_of (by intros; simp)) (.nil _))
  · exact .cons (calm_of (by intros; simp)) (.cons (calm_of (by intros; simp)) (.nil _))

/-- Not the end of a status check of clusters. -/
def Op.notCheck : Op → Bool
  | .checkClustersEnd _ => false
  | _ => true

theorem acts_agrees {cfg : Cfg} {s : State} (hn : Named s) (hi : ∀ c ∈ s.clusters, Inv cfg.bulk c) {o : Op}
    (hp : o.plain = true) (ho : o.notCheck = true) {d : Cluster} (hd : d ∈ s.clusters) (ha : Agrees d) (k : Nat) :
    Agrees (onAll d ((acts cfg s o).take k)) := by
  have I := hi d hd
  have fx {n : Nat} {c : Cluster} (hc : s.find n = some c) : c ∈ s.clusters ∧ c.row.name = n ∧ (d.row.name = c.row.name → d = c) := by
    obtain ⟨hm, e⟩ := sfind_spec hc
    exact ⟨hm, e, fun e' => cname_inj hn.nodup hd hm e'⟩
  cases o with
  | startCluster u m n => simp [Op.plain] at hp
  | cleanup n => simp [Op.plain] at hp
  | checkClustersEnd l => simp [Op.notCheck] at ho
  | checkClusters => exact (Calm.nil d).agrees ha k
  | checkWorkers => exact (Calm.nil d).agrees ha k
  | stopCluster n f =>
    refine Calm.agrees ?_ ha k
    simp only [acts]
    split
    · exact .nil d
    · rename_i c hc
      obtain ⟨hm, rfl, hx⟩ := fx hc
      refine .ite (fun ht => .cons (calm_updC1 ?_) (.cons (calm_of (by intros; simp [putC1])) (.nil _))) (fun _ => .nil _)
      intro e
      refine ⟨?_, by simp⟩
      have ht : c.row.target.n ≤ 3 := ht
      have := I.1.clo
      rw [hx e] at this ⊢
      omega
  | heartbeat n m now =>
    refine Calm.agrees ?_ ha k
    simp only [acts]
    split
    · exact .nil d
    · rename_i c hc
      obtain ⟨hm, rfl, hx⟩ := fx hc
      refine .ite (fun _ => .nil _) (fun ht => .append (.cons (calm_of (by intros; simp)) (.nil _)) (.ite (fun _ => .nil _)
        (fun _ => .append (.append (.append ?_ ?_) (.ite (fun _ => .nil _) (fun _ => ?_))) ?_)))
      · split
        · exact .nil _
        · rename_i u hu
          refine .cons (calm_updC1 ?_) (.cons (calm_of (by intros; simp [putC1])) (.nil _))
          intro e
          have ht : ¬ 3 < c.row.target.n := ht
          have := I.1.clo
          rw [hx e] at this ⊢
          refine ⟨by omega, ?_⟩
          simp only [hbClusterUpdate] at hu
          split at hu
          · split at hu
            · simp at hu
            · simp at hu; subst hu; simp
          · simp at hu; subst hu; simp
      · exact .cons (calm_of (by intros; simp)) (.cons (calm_of (by intros; simp [putWs])) (.nil _))
      · exact .cons (calm_of (by intros; simp)) (.cons (calm_of (by intros; simp [updWs])) (.nil _))
      · exact .cons (calm_of (by intros; simp [updWs])) (.nil _)
  | shutdown =>
    refine Calm.agrees ?_ ha k
    simp only [acts, shutdownActs]
    refine .cons (calm_updC ?_) (.cons (calm_of (by intros; simp)) (.nil _))
    by_cases hx : d.row.name ∈ (s.clusters.filter (fun c => c.row.active)).map (fun c => c.row.name)
    · right
      rw [if_pos hx]
      refine ⟨?_, by simp⟩
      obtain ⟨c, hc, e⟩ := List.mem_map.1 hx
      obtain ⟨hc, hac⟩ := List.mem_filter.1 hc
      rw [cname_inj hn.nodup hc hd e] at hac
      have : d.row.target.n < 5 := of_decide_eq_true hac
      have := I.1.clo
      omega
    · left; exact if_neg hx
  | checkTimeouts now =>
    refine Calm.agrees ?_ ha k
    simp only [acts, timeoutActs]
    refine .ite (fun _ => .nil _) (fun _ => .cons (calm_updC ?_) (.cons (calm_of (by intros; simp)) (.cons (calm_of (by intros; simp)) (.cons (calm_of (by intros; simp)) (.nil _)))))
    by_cases hx : d.row.name ∈ (s.clusters.filter (fun c => timeoutCluster cfg now c = .fail)).map (fun c => c.row.name)
    · right
      rw [if_pos hx]
      refine ⟨?_, by simp⟩
      obtain ⟨c, hc, e⟩ := List.mem_map.1 hx
      obtain ⟨hc, hac⟩ := List.mem_filter.1 hc
      rw [cname_inj hn.nodup hc hd e] at hac
      have hac : timeoutCluster cfg now d = .fail := by simpa using hac
      refine Decidable.by_contra (fun h5 => ?_)
      have : d.row.active = false := by
        have := I.1.clo (by omega)
        exact decide_eq_false (Nat.not_lt.2 this)
      simp [timeoutCluster, this] at hac
    · left; exact if_neg hx
  | checkWorkersEnd sts =>
    refine Calm.agrees ?_ ha k
    simp only [acts]
    split
    · exact .nil _
    · simp only [checkWorkersActs]
      refine .append (.append (.cons (calm_of (by intros; simp)) (.nil _)) ?_) (.cons (calm_of (by intros; simp)) (.nil _))
      intro a ha
      obtain ⟨p, -, rfl⟩ := List.mem_map.1 ha
      exact calm_of (by intros; simp)
  | getC n now =>
    refine Calm.agrees ?_ ha k
    simp only [acts]
    split
    · exact .nil d
    · rename_i c hc
      obtain ⟨hm, rfl, hx⟩ := fx hc
      exact .ite (fun _ => .cons (calm_of (by intros; simp)) (reconcileC_calm hx _ _)) (fun _ => .nil _)
  | getW n w now =>
    refine Calm.agrees ?_ ha k
    simp only [acts]
    split
    · exact .nil d
    · split
      · exact .nil d
      · exact .ite (fun _ => .cons (calm_of (by intros; simp)) (reconcileW_calm _ _ _ _ _)) (fun _ => .nil _)
  | yieldC n st =>
    refine Calm.agrees ?_ ha k
    simp only [acts]
    split
    · exact .nil d
    · rename_i c hc
      obtain ⟨hm, rfl, hx⟩ := fx hc
      refine .ite (fun hf => .cons (calm_updC1 ?_) (.nil _)) (fun _ => .nil _)
      intro e
      have := I.2.flS
      rw [hx e] at this ⊢
      have := this hf
      exact ⟨by omega, by simp⟩
  | yieldW n w st =>
    refine Calm.agrees ?_ ha k
    simp only [acts]
    split
    · exact .nil d
    · split
      · exact .nil d
      · exact .ite (fun _ => .cons (calm_of (by intros; simp [updW1])) (.nil _)) (fun _ => .nil _)
  | endStartC n ok =>
    refine Calm.agrees ?_ ha k
    simp only [acts]
    split
    · exact .nil d
    · rename_i c hc
      obtain ⟨hm, rfl, hx⟩ := fx hc
      refine .ite (fun hf => ?_) (fun _ => .nil _)
      have h5 : d.row.name = c.row.name → d.row.status.n < 5 := by
        intro e
        have := I.2.flS
        rw [hx e] at this ⊢
        have := this hf
        omega
      exact .append (.ite (fun _ => .cons (calm_updC1 (fun e => ⟨h5 e, by simp⟩)) (.nil _))
        (fun _ => .cons (calm_updC1 (fun e => ⟨h5 e, by simp⟩)) (.cons (calm_of (by intros; simp [putC1])) (.nil _))))
        (.cons (calm_of (by intros; simp)) (.nil _))
  | endStartW n w ok =>
    refine Calm.agrees ?_ ha k
    simp only [acts]
    split
    · exact .nil d
    · split
      · exact .nil d
      · exact .ite (fun _ => .append (.ite (fun _ => .cons (calm_of (by intros; simp [updW1])) (.nil _))
          (fun _ => .cons (calm_of (by intros; simp [updW1])) (.cons (calm_of (by intros; simp)) (.cons (calm_of (by intros; simp [putWs])) (.nil _)))))
          (.cons (calm_of (by intros; simp)) (.cons (calm_of (by intros; simp)) (.nil _)))) (fun _ => .nil _)
  | endStopW n w now =>
    refine Calm.agrees ?_ ha k
    simp only [acts]
    split
    · exact .nil d
    · split
      · exact .nil d
      · exact .ite (fun _ => .append (wstopped_calm _ _ _ _ _) (.cons (calm_of (by intros; simp)) (.nil _))) (fun _ => .nil _)
  | endStopC n now =>
    simp only [acts]
    split
    · exact (Calm.nil d).agrees ha k
    · rename_i c hc
      obtain ⟨hm, rfl, hx⟩ := fx hc
      split
      · rename_i hf
        by_cases e : d.row.name = c.row.name
        · have := hx e
          subst this
          simp only [endStopClusterActs, stoppedActs, List.cons_append, List.nil_append]
          match k with
          | 0 => exact ha
          | 1 =>
            simp only [List.take_succ_cons, List.take_zero]
            rw [onAll_cons, volC_on _ _ _ rfl, onAll_nil]
            exact ha
          | 2 =>
            simp only [List.take_succ_cons, List.take_zero]
            rw [onAll_cons, volC_on _ _ _ rfl, onAll_cons, updWs_on _ _ _ _ (by rfl), onAll_nil]
            exact ha
          | 3 =>
            simp only [List.take_succ_cons, List.take_zero]
            rw [onAll_cons, volC_on _ _ _ rfl, onAll_cons, updWs_on _ _ _ _ (by rfl), onAll_cons, updC1_on _ _ _ (by rfl), onAll_nil]
            exact fun _ => rfl
          | 4 =>
            simp only [List.take_succ_cons, List.take_zero]
            rw [onAll_cons, volC_on _ _ _ rfl, onAll_cons, updWs_on _ _ _ _ (by rfl), onAll_cons, updC1_on _ _ _ (by rfl),
              onAll_cons, volC_on _ _ _ (by rfl), onAll_nil]
            exact fun _ => rfl
          | k + 5 =>
            simp only [List.take_succ_cons, List.take_nil]
            rw [onAll_cons, volC_on _ _ _ rfl, onAll_cons, updWs_on _ _ _ _ (by rfl), onAll_cons, updC1_on _ _ _ (by rfl),
              onAll_cons, volC_on _ _ _ (by rfl), onAll_cons, volC_on _ _ _ (by rfl), onAll_nil]
            exact fun _ => rfl
        · rw [onAll_id]
          · exact ha
          · intro a hm
            exact (endStopC_local c now a (List.mem_of_mem_take hm)).2 d e
      · exact (Calm.nil d).agrees ha k

/-- The history contains no end of a status check of clusters. -/
def NoCheck (evs : List Ev) : Prop :=
  ∀ e ∈ evs, ∀ l, e ≠ .op (.checkClustersEnd l) ∧ ∀ k now, e ≠ .crash (.checkClustersEnd l) k now

theorem prefix_agrees {cfg : Cfg} {s : State} (h : SInv cfg s) {o : Op} (ho : o.notCheck = true)
    (ha : ∀ c ∈ s.clusters, Agrees c) (k : Nat) : ∀ c ∈ (s.applyAll ((acts cfg s o).take k)).clusters, Agrees c := by
  cases hp : o.plain
  · cases o with
    | startCluster user mx now =>
      have new (v : CVol) : Agrees { row := newRow s.next user mx now, vol := v, workers := [] } := by
        intro e; simp [newRow] at e
      obtain ⟨e1, e2, e3, e4⟩ := start_state h.named user mx now
      match k with
      | 0 => exact ha
      | 1 =>
        show ∀ c ∈ (s.apply (.newC (newRow s.next user mx now))).clusters, Agrees c
        rw [e1]
        intro c hc
        rcases List.mem_append.1 hc with hc | hc
        · exact ha c hc
        · simp at hc; subst hc; exact fun e => by simp [newCluster, newRow] at e
      | k + 2 =>
        have et : (acts cfg s (.startCluster user mx now)).take (k + 2) =
          [.newC (newRow s.next user mx now), putC1 s.next] := by simp [acts, startClusterActs]
        rw [et]
        show ∀ c ∈ ((s.apply (.newC (newRow s.next user mx now))).apply (putC1 s.next)).clusters, Agrees c
        rw [e2]
        intro c hc
        rcases List.mem_append.1 hc with hc | hc
        · exact ha c hc
        · simp at hc; subst hc; exact fun e => by simp [newCluster, newRow] at e
    | cleanup now =>
      match k with
      | 0 => exact ha
      | k + 1 =>
        have et : (acts cfg s (.cleanup now)).take (k + 1) = cleanupActs cfg s now := by simp [acts, cleanupActs]
        rw [et]
        exact fun c hc => ha c (List.mem_filter.1 hc).1
    | _ => simp [Op.plain] at hp
  · obtain ⟨e1, e2, -⟩ := applyAll_plain s _ ((prefix_sp h o k).2 hp)
    rw [e1]
    intro c hc
    obtain ⟨d, hd, rfl⟩ := List.mem_map.1 hc
    exact acts_agrees h.named h.inv hp ho hd (ha d hd) k

theorem fold_agrees {cfg : Cfg} : ∀ {evs : List Ev}, NoCheck evs → ∀ {s : State}, SInv cfg s → (∀ c ∈ s.clusters, Agrees c) →
    ∀ c ∈ (evs.foldl (State.ev cfg) s).clusters, Agrees c
  | [], _, _, _, h => h
  | e :: evs, he, s, hi, h => by
    refine fold_agrees (s := s.ev cfg e) (fun x hx => he x (by simp [hx])) (ev_inv hi e) ?_
    have he := he e (by simp)
    cases e with
    | op o =>
      have ho : o.notCheck = true := by
        cases o with
        | checkClustersEnd l => exact ((he l).1 rfl).elim
        | _ => rfl
      have := prefix_agrees hi ho h (acts cfg s o).length
      rw [take_all] at this
      exact this
    | crash o k now =>
      have ho : o.notCheck = true := by
        cases o with
        | checkClustersEnd l => exact ((he l).2 k now rfl).elim
        | _ => rfl
      have sp := (prefix_sp hi o k).1
      simp only [State.ev]
      rw [restart_clusters sp.synced sp.named now]
      intro c hc
      obtain ⟨d, hd, rfl⟩ := List.mem_map.1 hc
      exact prefix_agrees hi ho h k d hd

end Verif.Backend
