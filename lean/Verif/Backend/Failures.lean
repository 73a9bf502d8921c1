import Verif.Backend.HbSteps
/-
How the count of failed worker starts changes.
-/
set_option linter.unusedSimpArgs false
set_option linter.unusedVariables false
namespace Verif.Backend

/-- The micro-action leaves the count of failed starts of every cluster as it is. -/
def Act.keepsFails (a : Act) : Prop := ∀ n f, a = .volC n f → ∀ v, (f v).failCount = v.failCount

theorem kf_vol (n : Nat) (f : CVol → CVol) (h : ∀ v, (f v).failCount = v.failCount) : (Act.volC n f).keepsFails := by
  intro m g e v
  cases e
  exact h v

theorem kf_of (a : Act) (h : ∀ n f, a ≠ .volC n f) : a.keepsFails := fun n f e => absurd e (h n f)

theorem fails_act (a : Act) (h : a.keepsFails) (c : Cluster) : (a.onCluster c).vol.failCount = c.vol.failCount := by
  cases a with
  | volC n f =>
    simp only [Act.onCluster]
    split
    · exact h n f rfl c.vol
    · rfl
  | updC f => rfl
  | updW f => rfl
  | putW f => rfl
  | volW n w f => rfl
  | newC r => rfl
  | newW n r => simp only [Act.onCluster]; split <;> rfl
  | purge p => rfl
  | putC f => simp only [Act.onCluster]; split <;> rfl

/-- No micro-action of the list does. -/
def KeepsFails (l : List Act) : Prop := ∀ a ∈ l, a.keepsFails

theorem KeepsFails.nil : KeepsFails [] := fun _ h => nomatch h
theorem KeepsFails.cons {a : Act} {l : List Act} (h : a.keepsFails) (h' : KeepsFails l) : KeepsFails (a :: l) := by
  intro b hb
  rcases List.mem_cons.1 hb with rfl | hb
  · exact h
  · exact h' b hb
theorem KeepsFails.append {l l' : List Act} (h : KeepsFails l) (h' : KeepsFails l') : KeepsFails (l ++ l') := by
  intro b hb
  rcases List.mem_append.1 hb with hb | hb
  · exact h b hb
  · exact h' b hb
theorem KeepsFails.ite {p : Prop} [Decidable p] {l l' : List Act} (h : KeepsFails l) (h' : KeepsFails l') : KeepsFails (if p then l else l') := by
  split <;> assumption

theorem kf_upd (n : Nat) (u : CUpd) : (updC1 n u).keepsFails := kf_of _ (by intros; simp [updC1])
theorem kf_updWs (n : Nat) (ws : List Nat) (u : WUpd) : (updWs n ws u).keepsFails := kf_of _ (by intros; simp [updWs])
theorem kf_updW1 (n w : Nat) (u : WUpd) : (updW1 n w u).keepsFails := kf_of _ (by intros; simp [updW1])
theorem kf_putC1 (n : Nat) : (putC1 n).keepsFails := kf_of _ (by intros; simp [putC1])
theorem kf_putWs (n : Nat) (ws : List Nat) : (putWs n ws).keepsFails := kf_of _ (by intros; simp [putWs])

theorem create_kf (n : Nat) (now : Int) : ∀ (k next : Nat), KeepsFails (createWorkers n next now k)
  | 0, _ => .nil
  | k + 1, next => .cons (kf_of _ (by intros; simp)) (.cons (kf_putWs _ _) (create_kf n now k (next + 1)))

theorem stopped_kf (c : Cluster) (now : Int) : KeepsFails (stoppedActs c now) :=
  .cons (kf_updWs _ _ _) (.cons (kf_upd _ _) (.cons (kf_vol _ _ (fun _ => rfl)) .nil))

theorem reconcileC_kf (cfg : Cfg) (next : Nat) (c : Cluster) (now : Int) : KeepsFails (reconcileClusterActs cfg next c now) := by
  simp only [reconcileClusterActs]
  refine .ite .nil (.ite (.ite (.ite (.ite ?_ (stopped_kf c now)) .nil) ?_) (.ite (.ite ?_ (.append (.ite ?_ .nil) (.ite (.append ?_ ?_) .nil))) .nil))
  · exact .cons (kf_vol _ _ (fun _ => rfl)) .nil
  · exact .append (.append (.cons (kf_updWs _ _ _) (.cons (kf_putWs _ _) (.cons (kf_upd _ _) .nil)))
      (.ite (.cons (kf_putC1 _) .nil) .nil)) (.cons (kf_vol _ _ (fun _ => rfl)) .nil)
  · exact .cons (kf_vol _ _ (fun _ => rfl)) .nil
  · exact .cons (kf_upd _ _) (.cons (kf_vol _ _ (fun _ => rfl)) .nil)
  · exact .cons (kf_vol _ _ (fun v => by simp only [proxied]; split <;> rfl)) .nil
  · exact .ite (.cons (kf_upd _ _) (.cons (kf_putC1 _) .nil)) (create_kf _ _ _ _)

theorem wstopped_kf (cfg : Cfg) (c : Cluster) (w : WRow) (now : Int) : KeepsFails (workerStoppedActs cfg c w now) :=
  .append (.cons (kf_updW1 _ _ _) .nil) (.ite (.cons (kf_putC1 _) .nil) .nil)

theorem reconcileW_kf (cfg : Cfg) (c : Cluster) (w : WRow) (now : Int) : KeepsFails (reconcileWorkerActs cfg c w now) := by
  simp only [reconcileWorkerActs]
  refine .ite .nil (.ite (.append (.ite .nil (.cons (kf_updW1 _ _ _) .nil)) (.ite (.cons (kf_putC1 _) .nil) .nil))
    (.ite (.ite ?_ (wstopped_kf _ _ _ _)) (.ite ?_ .nil)))
  · exact .cons (kf_of _ (by intros; simp)) (.cons (kf_vol _ _ (fun _ => rfl)) .nil)
  · exact .cons (kf_of _ (by intros; simp)) (.cons (kf_vol _ _ (fun _ => rfl)) .nil)

theorem KeepsFails.on {l : List Act} : ∀ {c : Cluster}, KeepsFails l → (onAll c l).vol.failCount = c.vol.failCount := by
  induction l with
  | nil => intro c _; rfl
  | cons a l ih =>
    intro c h
    rw [onAll_cons, ih (fun b hb => h b (by simp [hb])), fails_act a (h a (by simp))]

/-- Operations that can change the count. -/
def Op.countsFails : Op → Bool
  | .heartbeat _ _ _ | .checkWorkersEnd _ | .endStartW _ _ _ => true
  | _ => false

theorem acts_kf (cfg : Cfg) (s : State) (o : Op) (ho : o.countsFails = false) : KeepsFails (acts cfg s o) := by
  cases o with
  | startCluster user mx now => exact .cons (kf_of _ (by intros; simp)) (.cons (kf_putC1 _) .nil)
  | stopCluster n failed =>
    simp only [acts]
    split
    · exact .nil
    · exact .ite (.cons (kf_upd _ _) (.cons (kf_putC1 _) .nil)) .nil
  | heartbeat n m now => simp [Op.countsFails] at ho
  | shutdown => exact .cons (kf_of _ (by intros; simp)) (.cons (kf_of _ (by intros; simp)) .nil)
  | checkTimeouts now =>
    exact .ite .nil (.cons (kf_of _ (by intros; simp)) (.cons (kf_of _ (by intros; simp))
      (.cons (kf_of _ (by intros; simp)) (.cons (kf_of _ (by intros; simp)) .nil))))
  | checkClusters => exact .nil
  | checkWorkers => exact .nil
  | checkClustersEnd statuses =>
    simp only [acts]
    split
    · exact .nil
    · exact .cons (kf_of _ (by intros; simp)) (.cons (kf_of _ (by intros; simp)) .nil)
  | checkWorkersEnd statuses => simp [Op.countsFails] at ho
  | cleanup now => exact .cons (kf_of _ (by intros; simp)) .nil
  | getC n now =>
    simp only [acts]
    split
    · exact .nil
    · exact .ite (.cons (kf_vol _ _ (fun _ => rfl)) (reconcileC_kf _ _ _ _)) .nil
  | getW n w now =>
    simp only [acts]
    split
    · exact .nil
    · split
      · exact .nil
      · exact .ite (.cons (kf_of _ (by intros; simp)) (reconcileW_kf _ _ _ _)) .nil
  | yieldC n st =>
    simp only [acts]
    split
    · exact .nil
    · exact .ite (.cons (kf_upd _ _) .nil) .nil
  | yieldW n w st =>
    simp only [acts]
    split
    · exact .nil
    · split
      · exact .nil
      · exact .ite (.cons (kf_updW1 _ _ _) .nil) .nil
  | endStartC n ok =>
    simp only [acts]
    split
    · exact .nil
    · exact .ite (.append (.ite (.cons (kf_upd _ _) .nil) (.cons (kf_upd _ _) (.cons (kf_putC1 _) .nil)))
        (.cons (kf_vol _ _ (fun _ => rfl)) .nil)) .nil
  | endStopC n now =>
    simp only [acts]
    split
    · exact .nil
    · exact .ite (.append (.append (.cons (kf_vol _ _ (fun _ => rfl)) .nil) (stopped_kf _ _))
        (.cons (kf_vol _ _ (fun _ => rfl)) .nil)) .nil
  | endStartW n w ok => simp [Op.countsFails] at ho
  | endStopW n w now =>
    simp only [acts]
    split
    · exact .nil
    · split
      · exact .nil
      · exact .ite (.append (wstopped_kf _ _ _ _) (.cons (kf_of _ (by intros; simp)) .nil)) .nil


/-- Every operation leaves each cluster that it does not remove as its micro-actions make it. -/
theorem step_onAll {cfg : Cfg} {s : State} (hi : SInv cfg s) {o : Op} {c d : Cluster} (hc : c ∈ s.clusters)
    (hd : d ∈ (s.step cfg o).clusters) (hn : d.row.name = c.row.name) :
    d = onAll c (acts cfg s o) ∨ (o.countsFails = false ∧ d = c) := by
  by_cases ho : o.plain = true
  · left
    rw [step_clusters hi ho] at hd
    obtain ⟨x, hx, rfl⟩ := List.mem_map.1 hd
    rw [onAll_name] at hn
    rw [cname_inj hi.named.nodup hx hc hn]
  · right
    cases o with
    | startCluster user mx now =>
      refine ⟨rfl, ?_⟩
      have e : (s.step cfg (.startCluster user mx now)).clusters =
          ((s.apply (.newC (newRow s.next user mx now))).apply (putC1 s.next)).clusters := rfl
      rw [e, (start_state hi.named user mx now).2.1, List.mem_append] at hd
      rcases hd with hd | hd
      · exact cname_inj hi.named.nodup hd hc hn
      · simp only [List.mem_singleton] at hd
        subst hd
        have : c.row.name < s.next := (hi.named.bound c hc).1
        have hn : s.next = c.row.name := hn
        omega
    | cleanup now =>
      refine ⟨rfl, ?_⟩
      have e : (s.step cfg (.cleanup now)).clusters = s.clusters.filter _ := rfl
      rw [e] at hd
      exact cname_inj hi.named.nodup (List.mem_filter.1 hd).1 hc hn
    | _ => simp [Op.plain] at ho

theorem raises_iff (c : Cluster) (m : Msg) :
    hbRaises c m = true ↔ ∃ w ∈ c.workers, (w.row.status = .running ∨ w.row.status = .closing) ∧ ¬ m.mentions w.row.name := by
  have key (w : Worker) : hbClass m w.row = .unexpected ↔
      (w.row.status = .running ∨ w.row.status = .closing) ∧ ¬ m.mentions w.row.name := by
    simp only [hbClass, Msg.mentions, not_or]
    generalize w.row.status = s
    cases s <;> simp [JobStatus.n] <;> repeat' split
    all_goals simp_all
  simp only [hbRaises, Bool.not_eq_true', List.isEmpty_eq_false_iff_exists_mem, mem_hbPick, key]

theorem newly_iff (c : Cluster) (m : Msg) : hbNewlyRunning c m ≠ [] ↔
    ∃ w ∈ c.workers, (w.row.status = .created ∨ w.row.status = .submitted) ∧ (w.row.name ∈ m.active ∨ w.row.name ∈ m.closing) := by
  have key (w : Worker) : ((hbClass m w.row = .closing ∨ hbClass m w.row = .active) ∧ w.row.status.n < JobStatus.running.n) ↔
      (w.row.status = .created ∨ w.row.status = .submitted) ∧ (w.row.name ∈ m.active ∨ w.row.name ∈ m.closing) := by
    simp only [hbClass]
    generalize w.row.status = s
    by_cases h1 : w.row.name ∈ m.closing <;> by_cases h2 : w.row.name ∈ m.active <;>
      by_cases h3 : w.row.name ∈ m.closed <;> cases s <;> simp [JobStatus.n, h1, h2, h3]
  constructor
  · intro h
    obtain ⟨x, hx⟩ := List.exists_mem_of_ne_nil _ h
    obtain ⟨w, hw, -⟩ := List.mem_map.1 hx
    obtain ⟨hw, hs⟩ := List.mem_filter.1 hw
    have hs := of_decide_eq_true hs
    simp only [List.mem_append, mem_hbPick] at hw
    rcases hw with ⟨h1, h2⟩ | ⟨h1, h2⟩
    · exact ⟨w, h1, (key w).1 ⟨Or.inl h2, hs⟩⟩
    · exact ⟨w, h1, (key w).1 ⟨Or.inr h2, hs⟩⟩
  · rintro ⟨w, h1, h2⟩ e
    obtain ⟨h2, h3⟩ := (key w).2 h2
    have : w.row.name ∈ hbNewlyRunning c m := by
      refine List.mem_map.2 ⟨w, List.mem_filter.2 ⟨?_, decide_eq_true h3⟩, rfl⟩
      simp only [List.mem_append, mem_hbPick]
      exact h2.imp (fun h => ⟨h1, h⟩) (fun h => ⟨h1, h⟩)
    rw [e] at this
    simp at this

theorem hb_fails (c x : Cluster) (m : Msg) (now : Int) : (onAll x (heartbeatActs c m now)).vol.failCount =
    if x.row.name = c.row.name ∧ c.row.target.n ≤ 3 ∧ hbRaises c m = false ∧ hbNewlyRunning c m ≠ [] then 0 else x.vol.failCount := by
  by_cases h1 : c.row.target.n ≤ 3
  · have h1' : ¬ c.row.target.n > JobStatus.running.n := Nat.not_lt.2 h1
    simp only [heartbeatActs, if_neg h1', h1, true_and]
    have k1 : KeepsFails [Act.volC c.row.name (fun v => { v with lastHb := some now })] := .cons (kf_vol _ _ (fun _ => rfl)) .nil
    rw [onAll_append]
    cases hr : hbRaises c m
    · simp only [Bool.false_eq_true, if_false, true_and]
      have k2 : KeepsFails (match hbClusterUpdate c m with | none => [] | some u => [updC1 c.row.name u, putC1 c.row.name]) := by
        split
        · exact .nil
        · exact .cons (kf_upd _ _) (.cons (kf_putC1 _) .nil)
      have k3 : KeepsFails [Act.updW (fun k x => if k = c.row.name then hbTarget c m x else {}), putWs c.row.name (hbTargeted c m)] :=
        .cons (kf_of _ (by intros; simp)) (.cons (kf_putWs _ _) .nil)
      have k4 : KeepsFails [updWs c.row.name (names (hbPick c m .closing)) { closeExpected := some true }] := .cons (kf_updWs _ _ _) .nil
      rw [onAll_append, k4.on, onAll_append]
      by_cases hn : hbNewlyRunning c m = []
      · simp only [hn, if_true, onAll_nil, ne_eq, not_true, and_false, if_false]
        exact ((k2.append k3).on).trans k1.on
      · simp only [hn, if_false, ne_eq, not_false_eq_true, and_true]
        rw [onAll_cons, onAll_cons, onAll_nil, fails_act _ (kf_updWs _ _ _)]
        have hk := (k1.append (k2.append k3)).on (c := x)
        rw [onAll_append] at hk
        generalize hy : onAll (onAll x [Act.volC c.row.name (fun v => { v with lastHb := some now })]) _ = y at hk ⊢
        have hyn : y.row.name = x.row.name := by rw [← hy, onAll_name, onAll_name]
        simp only [Act.onCluster, hyn]
        by_cases hx : c.row.name = x.row.name
        · rw [if_pos hx, if_pos hx.symm]
        · rw [if_neg hx, if_neg (Ne.symm hx), hk]
    · simp only [if_true, onAll_nil, Bool.true_eq_false, false_and, and_false, if_false]
      exact k1.on
  · have h1' : c.row.target.n > JobStatus.running.n := Nat.lt_of_not_le h1
    simp only [heartbeatActs, if_pos h1', h1, false_and, and_false, if_false, onAll_nil]

theorem incr_fails (x : Cluster) : ∀ (b : List (Nat × Nat)),
    (onAll x (b.map (fun p => Act.volC p.1 (fun v => { v with failCount := v.failCount + 1 })))).vol.failCount =
      x.vol.failCount + (b.filter (fun p => decide (p.1 = x.row.name))).length := by
  intro b
  induction b generalizing x with
  | nil => rfl
  | cons p b ih =>
    rw [List.map_cons, onAll_cons, ih, onCluster_name, List.filter_cons]
    simp only [Act.onCluster]
    by_cases h : p.1 = x.row.name
    · simp [h]; omega
    · simp [h]

theorem bad_length (n : Nat) (l : List (Nat × Nat)) (st : List Bool) :
    ((bad l st).filter (fun p => decide (p.1 = n))).length =
      ((l.zip st).filter (fun p => decide (p.1.1 = n) && !p.2)).length := by
  simp only [bad, List.filter_map, List.length_map, List.filter_filter]
  rfl

open Classical in
theorem step_fails {cfg : Cfg} {s : State} (hi : SInv cfg s) {o : Op} {c d : Cluster} (hc : c ∈ s.clusters)
    (hd : d ∈ (s.step cfg o).clusters) (hn : d.row.name = c.row.name) :
    d.vol.failCount = if workerStarted c o then 0 else c.vol.failCount + startFailures s c o := by
  rcases step_onAll hi hc hd hn with e | ⟨ho, rfl⟩
  · cases hco : o.countsFails
    · rw [e, (acts_kf cfg s o hco).on]
      cases o <;> simp [workerStarted, startFailures, Op.countsFails] at hco ⊢
    · subst e
      cases o with
      | heartbeat n m now =>
        simp only [acts, startFailures, Nat.add_zero]
        cases hf : s.find n with
        | none =>
          have : n ≠ c.row.name := by
            intro h
            rw [h, sfind_mem hi.named.nodup hc] at hf
            cases hf
          simp [workerStarted, this]
        | some x =>
          simp only []
          rw [hb_fails]
          obtain ⟨hx, rfl⟩ := sfind_spec hf
          by_cases hcx : c.row.name = x.row.name
          · have := cname_inj hi.named.nodup hc hx hcx
            subst this
            have ht : c.row.target.n ≤ 3 ↔ ¬ StopRequested c := by
              have := (hi.inv c hx).1.tgt
              rw [StopRequested, finished_iff]
              omega
            have hr : hbRaises c m = false ↔
                ∀ w ∈ c.workers, w.row.status = .running ∨ w.row.status = .closing → m.mentions w.row.name := by
              rw [← Bool.not_eq_true, raises_iff]
              constructor
              · intro h w hw hs
                exact Decidable.by_contra (fun h' => h ⟨w, hw, hs, h'⟩)
              · rintro h ⟨w, hw, hs, h'⟩
                exact h' (h w hw hs)
            simp only [workerStarted, true_and, ht, hr, newly_iff]
          · simp only [workerStarted, hcx, Ne.symm hcx, false_and, if_false]
      | checkWorkersEnd st =>
        rw [if_neg (show ¬ workerStarted c (.checkWorkersEnd st) from fun h => h)]
        simp only [acts, startFailures]
        cases s.chkW with
        | none => rfl
        | some l =>
          simp only [checkWorkersActs]
          rw [onAll_append, onAll_cons, onAll_nil, fails_act _ (kf_of _ (by intros; simp)), onAll_append, onAll_cons,
            onAll_nil, incr_fails, fails_act _ (kf_of _ (by intros; simp)), onCluster_name, bad_length]
      | endStartW n w ok =>
        rw [if_neg (show ¬ workerStarted c (.endStartW n w ok) from fun h => h)]
        simp only [acts]
        cases hf : s.find n with
        | none =>
          have : n ≠ c.row.name := by
            intro h
            rw [h, sfind_mem hi.named.nodup hc] at hf
            cases hf
          cases ok <;> simp [startFailures, this]
        | some x =>
          obtain ⟨hx, rfl⟩ := sfind_spec hf
          simp only []
          cases hw : x.find w with
          | none =>
            simp only [onAll_nil]
            cases ok
            · have : ¬ (x.row.name = c.row.name ∧ ∃ y ∈ c.workers, y.row.name = w ∧ y.vol.fl = .starting) := by
                rintro ⟨e, y, hy, h1, -⟩
                have := cname_inj hi.named.nodup hx hc e
                subst this
                subst h1
                rw [wfind_mem (hi.inv x hx).1.nodup hy] at hw
                cases hw
              simp [startFailures, this]
            · rfl
          | some y =>
            obtain ⟨hy, rfl⟩ := find_spec hw
            simp only []
            have hiff : (x.row.name = c.row.name ∧ ∃ z ∈ c.workers, z.row.name = y.row.name ∧ z.vol.fl = .starting) ↔
                (x.row.name = c.row.name ∧ y.vol.fl = .starting) := by
              constructor
              · rintro ⟨e, z, hz, h1, h2⟩
                have := cname_inj hi.named.nodup hx hc e
                subst this
                rw [name_inj (hi.inv x hx).1.nodup hz hy h1] at h2
                exact ⟨rfl, h2⟩
              · rintro ⟨e, h⟩
                have := cname_inj hi.named.nodup hx hc e
                subst this
                exact ⟨rfl, y, hy, rfl, h⟩
            by_cases hfl : y.vol.fl = .starting
            · simp only [hfl, if_true, endStartWorkerActs]
              have kt : KeepsFails [Act.volC x.row.name (CVol.addLog (.startedWorker y.row.name)),
                  Act.volW x.row.name y.row.name (fun v => { v with fl := .idle })] :=
                .cons (kf_vol _ _ (fun _ => rfl)) (.cons (kf_of _ (by intros; simp)) .nil)
              rw [onAll_append, kt.on]
              cases ok
              · simp only [Bool.false_eq_true, if_false, onAll_cons, onAll_nil, startFailures, hiff, hfl, and_true]
                rw [fails_act _ (kf_putWs _ _)]
                have h1 := fails_act _ (kf_updW1 x.row.name y.row.name { status := some .submitted, target := some .failed }) c
                generalize hz : (updW1 x.row.name y.row.name { status := some .submitted, target := some .failed }).onCluster c = z at h1 ⊢
                have hzn : z.row.name = c.row.name := by rw [← hz, onCluster_name]
                simp only [Act.onCluster, hzn]
                by_cases e : x.row.name = c.row.name
                · simp only [e, if_true, h1]
                · simp only [e, if_false, h1, Nat.add_zero]
              · simp only [if_true, onAll_cons, onAll_nil, startFailures, Nat.add_zero]
                exact fails_act _ (kf_updW1 _ _ _) _
            · simp only [hfl, if_false, onAll_nil]
              cases ok
              · simp only [startFailures, hiff, hfl, and_false, if_false, Nat.add_zero]
              · rfl
      | _ => simp [Op.countsFails] at hco
  · cases o <;> simp [workerStarted, startFailures, Op.countsFails] at ho ⊢

end Verif.Backend
