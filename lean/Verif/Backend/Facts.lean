import Verif.Backend.Measure
/-
From the invariant to the vocabulary of the specification.
-/
set_option linter.unusedSimpArgs false
set_option linter.unusedVariables false
namespace Verif.Backend

theorem finished_iff {s : JobStatus} : s.finished ↔ 5 ≤ s.n := by
  rw [n_ge5]; rfl

instance (s : JobStatus) : Decidable s.finished := inferInstanceAs (Decidable (_ ∨ _))

/-! ### The log -/

theorem stoppedSince_spec : ∀ {log : List Ext}, stoppedSince log = true → StoppedSinceStart log
  | [], h => by simp [stoppedSince] at h
  | e :: l, h => by
    have cons (hl : stoppedSince l = true) (he : e ≠ .startCluster) : StoppedSinceStart (e :: l) := by
      obtain ⟨a, b, rfl, hn⟩ := stoppedSince_spec hl
      exact ⟨e :: a, b, rfl, by simp [hn, he.symm]⟩
    cases e with
    | stopCluster => exact ⟨[], l, rfl, by simp⟩
    | startCluster => simp [stoppedSince] at h
    | _ => exact cons (by simpa [stoppedSince] using h) (by simp)

theorem startedSince_of {l2 l1 : List Ext} (h : Ext.crash ∉ l2) : startedSince (l2 ++ .startCluster :: l1) = true := by
  induction l2 with
  | nil => rfl
  | cons e l2 ih =>
    simp only [List.mem_cons, not_or] at h
    have := ih h.2
    cases e <;> simp_all [startedSince]

theorem separated_spec {log : List Ext} (h : separated log = true) : ¬ DoubleStart log := by
  rintro ⟨l3, l2, l1, rfl, hc⟩
  induction l3 with
  | nil =>
    simp only [List.nil_append, separated, Bool.and_eq_true, Bool.not_eq_true'] at h
    rw [startedSince_of hc] at h
    simp at h
  | cons e l3 ih =>
    refine ih ?_
    cases e <;> simp_all [separated]

theorem count_start {log : List Ext} (h : separated log = true) (hc : Ext.crash ∉ log) : log.count .startCluster ≤ 1 := by
  induction log with
  | nil => simp
  | cons e l ih =>
    simp only [List.mem_cons, not_or] at hc
    have hc' := hc.2
    have none : startedSince l = false → l.count .startCluster = 0 := by
      intro hs
      refine List.count_eq_zero.2 (fun hm => ?_)
      obtain ⟨a, b, rfl⟩ := List.append_of_mem hm
      rw [startedSince_of (fun hx => hc' (by simp [hx]))] at hs
      simp at hs
    cases e with
    | startCluster =>
      simp only [separated, Bool.and_eq_true, Bool.not_eq_true'] at h
      simp [none h.1]
    | _ => exact ih (by simpa [separated] using h) hc'

theorem leaked_wst {bulk : Bool} {w : Nat} {log : List Ext} (h : Leaked bulk w log) : wst bulk w log ≠ .off := by
  obtain ⟨later, earlier, rfl, h1, h2, h3⟩ := h
  induction later with
  | nil => simp [wst]
  | cons e l ih =>
    simp only [List.mem_cons, not_or] at h1 h2 h3
    have := ih h1.2 h2.2 (fun b => (h3 b).2)
    cases e with
    | startWorker x =>
      have : x ≠ w := fun e => h1.1 (by rw [e])
      simp_all [wst]
    | stopWorker x =>
      have : x ≠ w := fun e => h2.1 (by rw [e])
      simp_all [wst]
    | stopCluster =>
      have : bulk = false := by
        cases bulk with
        | true => exact ((h3 rfl).1 rfl).elim
        | false => rfl
      simp_all [wst]
    | startedWorker x =>
      simp only [List.cons_append, wst]
      split
      · simp
      · exact this
    | crash =>
      simp only [List.cons_append, wst]
      split
      · simp
      · exact this
    | _ => simpa [wst] using this

theorem wst_starting {bulk : Bool} {w : Nat} : ∀ {log : List Ext}, wst bulk w log = .starting →
    ∃ l1 earlier, log = l1 ++ .startWorker w :: earlier ∧ .startWorker w ∉ l1 ∧ .startedWorker w ∉ l1
  | [], h => by simp [wst] at h
  | e :: l, h => by
    have cons (hl : wst bulk w l = .starting) (he : e ≠ .startWorker w) (he' : e ≠ .startedWorker w) :
        ∃ l1 earlier, e :: l = l1 ++ .startWorker w :: earlier ∧ .startWorker w ∉ l1 ∧ .startedWorker w ∉ l1 := by
      obtain ⟨a, b, rfl, h1, h2⟩ := wst_starting hl
      exact ⟨e :: a, b, rfl, by simp [h1, he.symm], by simp [h2, he'.symm]⟩
    cases e with
    | startWorker x =>
      by_cases hx : x = w
      · subst hx; exact ⟨[], l, rfl, by simp, by simp⟩
      · exact cons (by simpa [wst, hx] using h) (by simp [hx]) (by simp)
    | startedWorker x =>
      by_cases hx : x = w
      · subst hx
        simp only [wst, true_and] at h
        split at h
        · simp at h
        · contradiction
      · exact cons (by simpa [wst, hx] using h) (by simp) (by simp [hx])
    | stopWorker x =>
      by_cases hx : x = w
      · simp [wst, hx] at h
      · exact cons (by simpa [wst, hx] using h) (by simp) (by simp)
    | stopCluster =>
      cases bulk
      · exact cons (by simpa [wst] using h) (by simp) (by simp)
      · simp [wst] at h
    | crash =>
      simp only [wst] at h
      split at h
      · simp at h
      · contradiction
    | _ => exact cons (by simpa [wst] using h) (by simp) (by simp)

theorem wst_lost {bulk : Bool} {w : Nat} : ∀ {log : List Ext}, wst bulk w log = .lost → StartInterrupted w log
  | [], h => by simp [wst] at h
  | e :: l, h => by
    have cons (hl : wst bulk w l = .lost) (he : e ≠ .startWorker w) : StartInterrupted w (e :: l) := by
      obtain ⟨l2, l1, b, rfl, h1, h2, h3⟩ := wst_lost hl
      exact ⟨e :: l2, l1, b, rfl, by simp [h1, he.symm], h2, h3⟩
    cases e with
    | startWorker x =>
      by_cases hx : x = w
      · simp [wst, hx] at h
      · exact cons (by simpa [wst, hx] using h) (by simp [hx])
    | startedWorker x =>
      simp only [wst] at h
      split at h
      · simp at h
      · exact cons h (by simp)
    | stopWorker x =>
      by_cases hx : x = w
      · simp [wst, hx] at h
      · exact cons (by simpa [wst, hx] using h) (by simp)
    | stopCluster =>
      cases bulk
      · exact cons (by simpa [wst] using h) (by simp)
      · simp [wst] at h
    | crash =>
      by_cases hs : wst bulk w l = .starting
      · obtain ⟨l1, b, rfl, h1, h2⟩ := wst_starting hs
        exact ⟨[], l1, b, rfl, by simp, h1, h2⟩
      · exact cons (by simpa [wst, hs] using h) (by simp)
    | _ => exact cons (by simpa [wst] using h) (by simp)

theorem StartInterrupted.crash {w : Nat} {log : List Ext} (h : StartInterrupted w log) : Ext.crash ∈ log := by
  obtain ⟨l2, l1, b, rfl, _⟩ := h
  simp

/-! ### Crash-free histories -/

/-- The history has no crash. -/
def CrashFree (evs : List Ev) : Prop := ∀ e ∈ evs, ∃ o, e = .op o

theorem log_act (a : Act) (ha : ∀ n f, a = .volC n f → ∀ v, Ext.crash ∈ (f v).log → Ext.crash ∈ v.log) (c : Cluster)
    (h : Ext.crash ∉ c.vol.log) : Ext.crash ∉ (a.onCluster c).vol.log := by
  cases a with
  | volC n f =>
    simp only [Act.onCluster]
    split
    · exact fun hm => h (ha n f rfl _ hm)
    · exact h
  | newW n r => simp only [Act.onCluster]; split <;> exact h
  | putC f => simp only [Act.onCluster]; split <;> exact h
  | _ => exact h

/-- The micro-action does not write a crash into a log. -/
def Act.noCrash (a : Act) : Prop := ∀ n f, a = .volC n f → ∀ v, Ext.crash ∈ (f v).log → Ext.crash ∈ v.log

theorem noCrash_vol (n : Nat) (f : CVol → CVol) (h : ∀ v, (f v).log = v.log) : (Act.volC n f).noCrash := by
  intro m g e v hm
  cases e
  rwa [h v] at hm

theorem noCrash_log (n : Nat) (f : CVol → CVol) (x : Ext) (hx : x ≠ .crash) (h : ∀ v, (f v).log = x :: v.log) : (Act.volC n f).noCrash := by
  intro m g e v hm
  cases e
  rw [h v] at hm
  simpa [hx.symm] using hm

theorem noCrash_of (a : Act) (h : ∀ n f, a ≠ .volC n f) : a.noCrash := fun n f e => absurd e (h n f)

/-- None of the micro-actions does. -/
def NoCrash (l : List Act) : Prop := ∀ a ∈ l, a.noCrash

theorem NoCrash.nil : NoCrash [] := fun _ h => nomatch h
theorem NoCrash.cons {a : Act} {l : List Act} (h : a.noCrash) (h' : NoCrash l) : NoCrash (a :: l) := by
  intro b hb
  rcases List.mem_cons.1 hb with rfl | hb
  · exact h
  · exact h' b hb
theorem NoCrash.append {l l' : List Act} (h : NoCrash l) (h' : NoCrash l') : NoCrash (l ++ l') := by
  intro b hb
  rcases List.mem_append.1 hb with hb | hb
  · exact h b hb
  · exact h' b hb
theorem NoCrash.ite {p : Prop} [Decidable p] {l l' : List Act} (h : NoCrash l) (h' : NoCrash l') : NoCrash (if p then l else l') := by
  split <;> assumption

theorem nc_upd (n : Nat) (u : CUpd) : (updC1 n u).noCrash := noCrash_of _ (by intros; simp [updC1])
theorem nc_updWs (n : Nat) (ws : List Nat) (u : WUpd) : (updWs n ws u).noCrash := noCrash_of _ (by intros; simp [updWs])
theorem nc_updW1 (n w : Nat) (u : WUpd) : (updW1 n w u).noCrash := noCrash_of _ (by intros; simp [updW1])
theorem nc_putC1 (n : Nat) : (putC1 n).noCrash := noCrash_of _ (by intros; simp [putC1])
theorem nc_putWs (n : Nat) (ws : List Nat) : (putWs n ws).noCrash := noCrash_of _ (by intros; simp [putWs])

theorem create_nc (n : Nat) (now : Int) : ∀ (k next : Nat), NoCrash (createWorkers n next now k)
  | 0, _ => .nil
  | k + 1, next => .cons (noCrash_of _ (by intros; simp)) (.cons (nc_putWs _ _) (create_nc n now k (next + 1)))

theorem stopped_nc (c : Cluster) (now : Int) : NoCrash (stoppedActs c now) :=
  .cons (nc_updWs _ _ _) (.cons (nc_upd _ _) (.cons (noCrash_vol _ _ (fun _ => rfl)) .nil))

theorem reconcileC_nc (cfg : Cfg) (next : Nat) (c : Cluster) (now : Int) : NoCrash (reconcileClusterActs cfg next c now) := by
  simp only [reconcileClusterActs]
  refine .ite .nil (.ite (.ite (.ite (.ite ?_ (stopped_nc c now)) .nil) ?_) (.ite (.ite ?_ (.append (.ite ?_ .nil) (.ite (.append ?_ ?_) .nil))) .nil))
  · exact .cons (noCrash_log _ _ .stopCluster (by simp) (fun _ => rfl)) .nil
  · exact .append (.append (.cons (nc_updWs _ _ _) (.cons (nc_putWs _ _) (.cons (nc_upd _ _) .nil)))
      (.ite (.cons (nc_putC1 _) .nil) .nil)) (.cons (noCrash_vol _ _ (fun _ => rfl)) .nil)
  · exact .cons (noCrash_log _ _ .startCluster (by simp) (fun _ => rfl)) .nil
  · exact .cons (nc_upd _ _) (.cons (noCrash_vol _ _ (fun _ => rfl)) .nil)
  · exact .cons (noCrash_vol _ _ (fun v => by simp only [proxied]; split <;> rfl)) .nil
  · exact .ite (.cons (nc_upd _ _) (.cons (nc_putC1 _) .nil)) (create_nc _ _ _ _)

theorem wstopped_nc (cfg : Cfg) (c : Cluster) (w : WRow) (now : Int) : NoCrash (workerStoppedActs cfg c w now) :=
  .append (.cons (nc_updW1 _ _ _) .nil) (.ite (.cons (nc_putC1 _) .nil) .nil)

theorem reconcileW_nc (cfg : Cfg) (c : Cluster) (w : WRow) (now : Int) : NoCrash (reconcileWorkerActs cfg c w now) := by
  simp only [reconcileWorkerActs]
  refine .ite .nil (.ite (.append (.ite .nil (.cons (nc_updW1 _ _ _) .nil)) (.ite (.cons (nc_putC1 _) .nil) .nil))
    (.ite (.ite ?_ (wstopped_nc _ _ _ _)) (.ite ?_ .nil)))
  · exact .cons (noCrash_of _ (by intros; simp)) (.cons (noCrash_log _ _ (.stopWorker w.name) (by simp) (fun _ => rfl)) .nil)
  · exact .cons (noCrash_of _ (by intros; simp)) (.cons (noCrash_log _ _ (.startWorker w.name) (by simp) (fun _ => rfl)) .nil)

theorem acts_nc (cfg : Cfg) (s : State) (o : Op) : NoCrash (acts cfg s o) := by
  cases o with
  | startCluster user mx now => exact .cons (noCrash_of _ (by intros; simp)) (.cons (nc_putC1 _) .nil)
  | stopCluster n failed =>
    simp only [acts]
    split
    · exact .nil
    · exact .ite (.cons (nc_upd _ _) (.cons (nc_putC1 _) .nil)) .nil
  | heartbeat n m now =>
    simp only [acts]
    split
    · exact .nil
    · rename_i c _
      refine .ite .nil (.append (.cons (noCrash_vol _ _ (fun _ => rfl)) .nil) (.ite .nil (.append (.append (.append ?_ ?_) (.ite .nil ?_)) ?_)))
      · split
        · exact .nil
        · exact .cons (nc_upd _ _) (.cons (nc_putC1 _) .nil)
      · exact .cons (noCrash_of _ (by intros; simp)) (.cons (nc_putWs _ _) .nil)
      · exact .cons (noCrash_vol _ _ (fun _ => rfl)) (.cons (nc_updWs _ _ _) .nil)
      · exact .cons (nc_updWs _ _ _) .nil
  | shutdown => exact .cons (noCrash_of _ (by intros; simp)) (.cons (noCrash_of _ (by intros; simp)) .nil)
  | checkTimeouts now =>
    exact .ite .nil (.cons (noCrash_of _ (by intros; simp)) (.cons (noCrash_of _ (by intros; simp))
      (.cons (noCrash_of _ (by intros; simp)) (.cons (noCrash_of _ (by intros; simp)) .nil))))
  | checkClusters => exact .nil
  | checkWorkers => exact .nil
  | checkClustersEnd statuses =>
    simp only [acts]
    split
    · exact .nil
    · exact .cons (noCrash_of _ (by intros; simp)) (.cons (noCrash_of _ (by intros; simp)) .nil)
  | checkWorkersEnd statuses =>
    simp only [acts]
    split
    · exact .nil
    · refine .append (.append (.cons (noCrash_of _ (by intros; simp)) .nil) ?_) (.cons (noCrash_of _ (by intros; simp)) .nil)
      intro a ha
      obtain ⟨p, _, rfl⟩ := List.mem_map.1 ha
      exact noCrash_vol _ _ (fun _ => rfl)
  | cleanup now => exact .cons (noCrash_of _ (by intros; simp)) .nil
  | getC n now =>
    simp only [acts]
    split
    · exact .nil
    · exact .ite (.cons (noCrash_vol _ _ (fun _ => rfl)) (reconcileC_nc _ _ _ _)) .nil
  | getW n w now =>
    simp only [acts]
    split
    · exact .nil
    · split
      · exact .nil
      · exact .ite (.cons (noCrash_of _ (by intros; simp)) (reconcileW_nc _ _ _ _)) .nil
  | yieldC n st =>
    simp only [acts]
    split
    · exact .nil
    · exact .ite (.cons (nc_upd _ _) .nil) .nil
  | yieldW n w st =>
    simp only [acts]
    split
    · exact .nil
    · split
      · exact .nil
      · exact .ite (.cons (nc_updW1 _ _ _) .nil) .nil
  | endStartC n ok =>
    simp only [acts]
    split
    · exact .nil
    · exact .ite (.append (.ite (.cons (nc_upd _ _) .nil) (.cons (nc_upd _ _) (.cons (nc_putC1 _) .nil)))
        (.cons (noCrash_log _ _ .startedCluster (by simp) (fun _ => rfl)) .nil)) .nil
  | endStopC n now =>
    simp only [acts]
    split
    · exact .nil
    · exact .ite (.append (.append (.cons (noCrash_vol _ _ (fun _ => rfl)) .nil) (stopped_nc _ _))
        (.cons (noCrash_vol _ _ (fun _ => rfl)) .nil)) .nil
  | endStartW n w ok =>
    simp only [acts]
    split
    · exact .nil
    · split
      · exact .nil
      · exact .ite (.append (.ite (.cons (nc_updW1 _ _ _) .nil) (.cons (nc_updW1 _ _ _)
          (.cons (noCrash_vol _ _ (fun _ => rfl)) (.cons (nc_putWs _ _) .nil))))
          (.cons (noCrash_log _ _ (.startedWorker w) (by simp) (fun _ => rfl)) (.cons (noCrash_of _ (by intros; simp)) .nil))) .nil
  | endStopW n w now =>
    simp only [acts]
    split
    · exact .nil
    · split
      · exact .nil
      · exact .ite (.append (wstopped_nc _ _ _ _) (.cons (noCrash_of _ (by intros; simp)) .nil)) .nil

/-- No known or removed cluster has a crash in its log. -/
def NoCrashLog (s : State) : Prop := (∀ c ∈ s.clusters, Ext.crash ∉ c.vol.log) ∧ ∀ c ∈ s.purged, Ext.crash ∉ c.vol.log

theorem nc_apply {s : State} (h : NoCrashLog s) (a : Act) (ha : a.noCrash) : NoCrashLog (s.apply a) := by
  have map : ∀ c ∈ s.clusters.map a.onCluster, Ext.crash ∉ c.vol.log := by
    intro c hc
    obtain ⟨d, hd, rfl⟩ := List.mem_map.1 hc
    exact log_act a ha d (h.1 d hd)
  cases a with
  | newC r =>
    refine ⟨fun c hc => ?_, h.2⟩
    rcases List.mem_append.1 hc with hc | hc
    · exact h.1 c hc
    · simp at hc; subst hc; simp [CVol.init]
  | purge q =>
    refine ⟨fun c hc => h.1 c ((List.mem_filter.1 hc).1), fun c hc => ?_⟩
    rcases List.mem_append.1 hc with hc | hc
    · exact h.2 c hc
    · exact h.1 c ((List.mem_filter.1 hc).1)
  | _ => exact ⟨map, h.2⟩

theorem nc_applyAll {l : List Act} : ∀ {s : State}, NoCrashLog s → NoCrash l → NoCrashLog (s.applyAll l) := by
  induction l with
  | nil => intro s h _; exact h
  | cons a l ih =>
    intro s h hl
    exact ih (nc_apply h a (hl a (by simp))) (fun b hb => hl b (by simp [hb]))

theorem crashFree_log {cfg : Cfg} : ∀ {evs : List Ev}, CrashFree evs → ∀ {s : State}, NoCrashLog s →
    NoCrashLog (evs.foldl (State.ev cfg) s)
  | [], _, _, h => h
  | e :: evs, he, s, h => by
    obtain ⟨o, rfl⟩ := he e (by simp)
    exact crashFree_log (s := s.ev cfg (.op o)) (fun x hx => he x (by simp [hx])) (nc_applyAll h (acts_nc cfg s o))

end Verif.Backend
