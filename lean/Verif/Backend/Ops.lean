import Verif.Backend.Workers
/-
Every operation keeps the invariant of every cluster, at every micro-action.
-/
set_option linter.unusedSimpArgs false
set_option linter.unusedVariables false
namespace Verif.Backend

/-! ### Which cluster a micro-action touches -/

/-- The micro-action touches only cluster `n`, and neither creates nor removes clusters. -/
def Act.about (n : Nat) (a : Act) : Prop := a.plain = true ∧ ∀ d, d.row.name ≠ n → a.onCluster d = d

/-- Not a creation of a worker. -/
def Act.quiet (a : Act) : Prop := a.plain = true ∧ ∀ n r, a ≠ .newW n r

theorem about_updC1 (n : Nat) (u : CUpd) : (updC1 n u).about n := ⟨rfl, fun d h => updC1_off _ _ _ h⟩
theorem about_updW1 (n x : Nat) (u : WUpd) : (updW1 n x u).about n := ⟨rfl, fun d h => updW1_off _ _ _ _ h⟩
theorem about_updWs (n : Nat) (ws : List Nat) (u : WUpd) : (updWs n ws u).about n := ⟨rfl, fun d h => updWs_off _ _ _ _ h⟩
theorem about_putC1 (n : Nat) : (putC1 n).about n := ⟨rfl, fun d h => putC1_off _ _ h⟩
theorem about_putWs (n : Nat) (ws : List Nat) : (putWs n ws).about n := ⟨rfl, fun d h => putWs_off _ _ _ h⟩
theorem about_volC (n : Nat) (f : CVol → CVol) : (Act.volC n f).about n := ⟨rfl, fun d h => volC_off _ _ _ h⟩
theorem about_volW (n x : Nat) (f : WVol → WVol) : (Act.volW n x f).about n := ⟨rfl, fun d h => volW_off _ _ _ _ h⟩
theorem about_newW (n : Nat) (r : WRow) : (Act.newW n r).about n := ⟨rfl, fun d h => newW_off _ _ _ h⟩

theorem quiet_updC1 (n : Nat) (u : CUpd) : (updC1 n u).quiet := ⟨rfl, by simp [updC1]⟩
theorem quiet_updW1 (n x : Nat) (u : WUpd) : (updW1 n x u).quiet := ⟨rfl, by simp [updW1]⟩
theorem quiet_updWs (n : Nat) (ws : List Nat) (u : WUpd) : (updWs n ws u).quiet := ⟨rfl, by simp [updWs]⟩
theorem quiet_putC1 (n : Nat) : (putC1 n).quiet := ⟨rfl, by simp [putC1]⟩
theorem quiet_putWs (n : Nat) (ws : List Nat) : (putWs n ws).quiet := ⟨rfl, by simp [putWs]⟩
theorem quiet_volC (n : Nat) (f : CVol → CVol) : (Act.volC n f).quiet := ⟨rfl, by simp⟩
theorem quiet_volW (n x : Nat) (f : WVol → WVol) : (Act.volW n x f).quiet := ⟨rfl, by simp⟩
theorem quiet_updC (f : Nat → CUpd) : (Act.updC f).quiet := ⟨rfl, by simp⟩
theorem quiet_updW (f : Nat → Nat → WUpd) : (Act.updW f).quiet := ⟨rfl, by simp⟩
theorem quiet_putC (f : Nat → Bool) : (Act.putC f).quiet := ⟨rfl, by simp⟩
theorem quiet_putW (f : Nat → Nat → Bool) : (Act.putW f).quiet := ⟨rfl, by simp⟩

/-- The micro-actions of a list touch only cluster `n`. -/
abbrev Local (n : Nat) (l : List Act) : Prop := ∀ a ∈ l, a.about n
/-- The list creates nothing. -/
abbrev Quiet (l : List Act) : Prop := ∀ a ∈ l, a.quiet

theorem Local.nil (n : Nat) : Local n [] := fun _ h => nomatch h
theorem Local.cons {n : Nat} {a : Act} {l : List Act} (h : a.about n) (h' : Local n l) : Local n (a :: l) := by
  intro b hb
  rcases List.mem_cons.1 hb with rfl | hb
  · exact h
  · exact h' b hb
theorem Local.append {n : Nat} {l l' : List Act} (h : Local n l) (h' : Local n l') : Local n (l ++ l') := by
  intro b hb
  rcases List.mem_append.1 hb with hb | hb
  · exact h b hb
  · exact h' b hb
theorem Local.ite {n : Nat} {p : Prop} [Decidable p] {l l' : List Act} (h : Local n l) (h' : Local n l') :
    Local n (if p then l else l') := by split <;> assumption
theorem Quiet.nil : Quiet [] := fun _ h => nomatch h
theorem Quiet.cons {a : Act} {l : List Act} (h : a.quiet) (h' : Quiet l) : Quiet (a :: l) := by
  intro b hb
  rcases List.mem_cons.1 hb with rfl | hb
  · exact h
  · exact h' b hb
theorem Quiet.append {l l' : List Act} (h : Quiet l) (h' : Quiet l') : Quiet (l ++ l') := by
  intro b hb
  rcases List.mem_append.1 hb with hb | hb
  · exact h b hb
  · exact h' b hb
theorem Quiet.ite {p : Prop} [Decidable p] {l l' : List Act} (h : Quiet l) (h' : Quiet l') :
    Quiet (if p then l else l') := by split <;> assumption

theorem Fresh.of_quiet {next : Nat} {l : List Act} (h : Quiet l) : Fresh next l :=
  Fresh.of_none next l (fun a ha => h a ha)

theorem Fresh.append_quiet {next : Nat} : ∀ {l l' : List Act}, Quiet l → Fresh next l' → Fresh next (l ++ l')
  | [], _, _, h' => h'
  | a :: l, l', h, h' => by
    have h1 := h a (by simp)
    have h2 := Fresh.append_quiet (l := l) (fun b hb => h b (by simp [hb])) h'
    obtain ⟨hp, hn⟩ := h1
    cases a <;> simp [Fresh, Act.plain] at hp hn ⊢ <;> exact h2

theorem stop_local (c : Cluster) (f : Bool) : Local c.row.name (stopClusterActs c f) :=
  .ite (.cons (about_updC1 _ _) (.cons (about_putC1 _) (.nil _))) (.nil _)
theorem stop_quiet (c : Cluster) (f : Bool) : Quiet (stopClusterActs c f) :=
  .ite (.cons (quiet_updC1 _ _) (.cons (quiet_putC1 _) .nil)) .nil

theorem hb_local (c : Cluster) (m : Msg) (now : Int) : Local c.row.name (heartbeatActs c m now) := by
  simp only [heartbeatActs]
  refine .ite (.nil _) (.append (.cons (about_volC _ _) (.nil _)) (.ite (.nil _)
    (.append (.append (.append ?_ ?_) ?_) (.cons (about_updWs _ _ _) (.nil _)))))
  · split
    · exact .nil _
    · exact .cons (about_updC1 _ _) (.cons (about_putC1 _) (.nil _))
  · refine .cons ⟨rfl, fun d h => updW_off _ _ (by simp [h])⟩ (.cons (about_putWs _ _) (.nil _))
  · exact .ite (.nil _) (.cons (about_volC _ _) (.cons (about_updWs _ _ _) (.nil _)))

theorem hb_quiet (c : Cluster) (m : Msg) (now : Int) : Quiet (heartbeatActs c m now) := by
  simp only [heartbeatActs]
  refine .ite .nil (.append (.cons (quiet_volC _ _) .nil) (.ite .nil
    (.append (.append (.append ?_ ?_) ?_) (.cons (quiet_updWs _ _ _) .nil))))
  · split
    · exact .nil
    · exact .cons (quiet_updC1 _ _) (.cons (quiet_putC1 _) .nil)
  · exact .cons (quiet_updW _) (.cons (quiet_putWs _ _) .nil)
  · exact .ite .nil (.cons (quiet_volC _ _) (.cons (quiet_updWs _ _ _) .nil))

theorem create_local (n : Nat) (now : Int) (k : Nat) : ∀ next, Local n (createWorkers n next now k) := by
  induction k with
  | zero => exact fun _ => .nil _
  | succ k ih => exact fun next => .cons (about_newW _ _) (.cons (about_putWs _ _) (ih _))

theorem create_fresh (n : Nat) (now : Int) (k : Nat) : ∀ next, Fresh next (createWorkers n next now k) := by
  induction k with
  | zero => exact fun _ => trivial
  | succ k ih => exact fun next => ⟨rfl, ih _⟩

theorem closing_local (cfg : Cfg) (c : Cluster) : Local c.row.name (toClosingActs cfg c) :=
  .append (.append (.cons (about_updWs _ _ _) (.cons (about_putWs _ _) (.cons (about_updC1 _ _) (.nil _))))
    (.ite (.cons (about_putC1 _) (.nil _)) (.nil _))) (.cons (about_volC _ _) (.nil _))
theorem closing_quiet (cfg : Cfg) (c : Cluster) : Quiet (toClosingActs cfg c) :=
  .append (.append (.cons (quiet_updWs _ _ _) (.cons (quiet_putWs _ _) (.cons (quiet_updC1 _ _) .nil)))
    (.ite (.cons (quiet_putC1 _) .nil) .nil)) (.cons (quiet_volC _ _) .nil)

theorem stopped_local (c : Cluster) (now : Int) : Local c.row.name (stoppedActs c now) :=
  .cons (about_updWs _ _ _) (.cons (about_updC1 _ _) (.cons (about_volC _ _) (.nil _)))
theorem stopped_quiet (c : Cluster) (now : Int) : Quiet (stoppedActs c now) :=
  .cons (quiet_updWs _ _ _) (.cons (quiet_updC1 _ _) (.cons (quiet_volC _ _) .nil))

theorem scale_local (cfg : Cfg) (next : Nat) (c : Cluster) (now : Int) :
    Local c.row.name (checkScaleActs cfg next c now) :=
  .ite (.cons (about_updC1 _ _) (.cons (about_putC1 _) (.nil _))) (create_local _ _ _ _)
theorem scale_fresh (cfg : Cfg) (next : Nat) (c : Cluster) (now : Int) :
    Fresh next (checkScaleActs cfg next c now) := by
  simp only [checkScaleActs]
  split
  · exact Fresh.of_quiet (.cons (quiet_updC1 _ _) (.cons (quiet_putC1 _) .nil))
  · exact create_fresh _ _ _ _

theorem reconcileC_local (cfg : Cfg) (next : Nat) (c : Cluster) (now : Int) :
    Local c.row.name (reconcileClusterActs cfg next c now) := by
  simp only [reconcileClusterActs]
  refine .ite (.nil _) (.ite (.ite (.ite (.ite (.cons (about_volC _ _) (.nil _)) (stopped_local _ _)) (.nil _))
    (closing_local _ _)) (.ite (.ite (.cons (about_volC _ _) (.nil _)) (.append (.ite ?_ (.nil _))
      (.ite (.append (.cons (about_volC _ _) (.nil _)) (scale_local _ _ _ _)) (.nil _)))) (.nil _)))
  exact .cons (about_updC1 _ _) (.cons (about_volC _ _) (.nil _))

theorem reconcileC_fresh (cfg : Cfg) (next : Nat) (c : Cluster) (now : Int) :
    Fresh next (reconcileClusterActs cfg next c now) := by
  simp only [reconcileClusterActs]
  split
  · exact trivial
  · split
    · exact Fresh.of_quiet (.ite (.ite (.ite (.cons (quiet_volC _ _) .nil) (stopped_quiet _ _)) .nil) (closing_quiet _ _))
    · split
      · split
        · exact Fresh.of_quiet (.cons (quiet_volC _ _) .nil)
        · refine Fresh.append_quiet (.ite (.cons (quiet_updC1 _ _) (.cons (quiet_volC _ _) .nil)) .nil) ?_
          split
          · exact Fresh.append_quiet (.cons (quiet_volC _ _) .nil) (scale_fresh _ _ _ _)
          · exact trivial
      · exact trivial

theorem wstopped_local (cfg : Cfg) (c : Cluster) (w : WRow) (now : Int) :
    Local c.row.name (workerStoppedActs cfg c w now) :=
  .append (.cons (about_updW1 _ _ _) (.nil _)) (.ite (.cons (about_putC1 _) (.nil _)) (.nil _))
theorem wstopped_quiet (cfg : Cfg) (c : Cluster) (w : WRow) (now : Int) :
    Quiet (workerStoppedActs cfg c w now) :=
  .append (.cons (quiet_updW1 _ _ _) .nil) (.ite (.cons (quiet_putC1 _) .nil) .nil)

theorem reconcileW_local (cfg : Cfg) (c : Cluster) (w : WRow) (now : Int) :
    Local c.row.name (reconcileWorkerActs cfg c w now) := by
  simp only [reconcileWorkerActs]
  exact .ite (.nil _) (.ite (.append (.ite (.nil _) (.cons (about_updW1 _ _ _) (.nil _)))
      (.ite (.cons (about_putC1 _) (.nil _)) (.nil _)))
    (.ite (.ite (.cons (about_volW _ _ _) (.cons (about_volC _ _) (.nil _))) (wstopped_local _ _ _ _))
      (.ite (.cons (about_volW _ _ _) (.cons (about_volC _ _) (.nil _))) (.nil _))))
theorem reconcileW_quiet (cfg : Cfg) (c : Cluster) (w : WRow) (now : Int) :
    Quiet (reconcileWorkerActs cfg c w now) := by
  simp only [reconcileWorkerActs]
  exact .ite .nil (.ite (.append (.ite .nil (.cons (quiet_updW1 _ _ _) .nil))
      (.ite (.cons (quiet_putC1 _) .nil) .nil))
    (.ite (.ite (.cons (quiet_volW _ _ _) (.cons (quiet_volC _ _) .nil)) (wstopped_quiet _ _ _ _))
      (.ite (.cons (quiet_volW _ _ _) (.cons (quiet_volC _ _) .nil)) .nil)))

theorem endStartC_local (n : Nat) (ok : Bool) : Local n (endStartClusterActs n ok) :=
  .append (.ite (.cons (about_updC1 _ _) (.nil _)) (.cons (about_updC1 _ _) (.cons (about_putC1 _) (.nil _))))
    (.cons (about_volC _ _) (.nil _))
theorem endStartC_quiet (n : Nat) (ok : Bool) : Quiet (endStartClusterActs n ok) :=
  .append (.ite (.cons (quiet_updC1 _ _) .nil) (.cons (quiet_updC1 _ _) (.cons (quiet_putC1 _) .nil)))
    (.cons (quiet_volC _ _) .nil)
theorem endStopC_local (c : Cluster) (now : Int) : Local c.row.name (endStopClusterActs c now) :=
  .append (.append (.cons (about_volC _ _) (.nil _)) (stopped_local _ _)) (.cons (about_volC _ _) (.nil _))
theorem endStopC_quiet (c : Cluster) (now : Int) : Quiet (endStopClusterActs c now) :=
  .append (.append (.cons (quiet_volC _ _) .nil) (stopped_quiet _ _)) (.cons (quiet_volC _ _) .nil)
theorem endStartW_local (n w : Nat) (ok : Bool) : Local n (endStartWorkerActs n w ok) :=
  .append (.ite (.cons (about_updW1 _ _ _) (.nil _)) (.cons (about_updW1 _ _ _) (.cons (about_volC _ _)
    (.cons (about_putWs _ _) (.nil _))))) (.cons (about_volC _ _) (.cons (about_volW _ _ _) (.nil _)))
theorem endStartW_quiet (n w : Nat) (ok : Bool) : Quiet (endStartWorkerActs n w ok) :=
  .append (.ite (.cons (quiet_updW1 _ _ _) .nil) (.cons (quiet_updW1 _ _ _) (.cons (quiet_volC _ _)
    (.cons (quiet_putWs _ _) .nil)))) (.cons (quiet_volC _ _) (.cons (quiet_volW _ _ _) .nil))
theorem endStopW_local (cfg : Cfg) (c : Cluster) (w : WRow) (now : Int) :
    Local c.row.name (endStopWorkerActs cfg c w now) :=
  .append (wstopped_local _ _ _ _) (.cons (about_volW _ _ _) (.nil _))
theorem endStopW_quiet (cfg : Cfg) (c : Cluster) (w : WRow) (now : Int) :
    Quiet (endStopWorkerActs cfg c w now) :=
  .append (wstopped_quiet _ _ _ _) (.cons (quiet_volW _ _ _) .nil)

theorem checkWorkers_quiet (snap : List (Nat × Nat)) (sts : List Bool) : Quiet (checkWorkersActs snap sts) :=
  .append (.append (.cons (quiet_updW _) .nil) (fun a ha => by
    obtain ⟨p, -, rfl⟩ := List.mem_map.1 ha
    exact quiet_volC _ _)) (.cons (quiet_putW _) .nil)

/-! ### Known objects -/

theorem sfind_spec {s : State} {n : Nat} {c : Cluster} (h : s.find n = some c) :
    c ∈ s.clusters ∧ c.row.name = n := by
  unfold State.find at h
  exact ⟨List.mem_of_find?_eq_some h, by simpa using List.find?_some h⟩

theorem cname_inj {cs : List Cluster} (h : (cs.map (fun c => c.row.name)).Nodup) {c d : Cluster} (hc : c ∈ cs)
    (hd : d ∈ cs) (e : c.row.name = d.row.name) : c = d := by
  induction cs with
  | nil => simp at hc
  | cons y ws ih =>
    simp only [List.map_cons, List.nodup_cons] at h
    rcases List.mem_cons.1 hc with e1 | hw' <;> rcases List.mem_cons.1 hd with e2 | hx'
    · rw [e1, e2]
    · subst e1; exact (h.1 (List.mem_map.2 ⟨d, hx', e.symm⟩)).elim
    · subst e2; exact (h.1 (List.mem_map.2 ⟨c, hw', e⟩)).elim
    · exact ih h.2 hw' hx'

theorem sfind_mem {s : State} (h : (s.clusters.map (fun c => c.row.name)).Nodup) {c : Cluster} (hc : c ∈ s.clusters) :
    s.find c.row.name = some c := by
  unfold State.find
  have : ∃ d, s.clusters.find? (fun d => d.row.name = c.row.name) = some d := by
    rw [← Option.isSome_iff_exists, List.find?_isSome]
    exact ⟨c, hc, by simp⟩
  obtain ⟨d, hd⟩ := this
  have hd' := sfind_spec (s := s) hd
  rw [hd, cname_inj h hd'.1 hc hd'.2]

/-- An operation on cluster `n`, seen by any cluster. -/
theorem local_good {bulk : Bool} {s : State} (hn : Named s) {c d : Cluster} {n : Nat} (hc : s.find n = some c)
    (hd : d ∈ s.clusters) (hi : Inv bulk d) {l : List Act} (hl : Local n l) (hg : Inv bulk c → Good bulk c l) :
    Good bulk d l := by
  obtain ⟨hm, e⟩ := sfind_spec hc
  by_cases h : d.row.name = n
  · have := cname_inj hn.nodup hd hm (h.trans e.symm)
    subst this
    exact hg hi
  · exact Good.of_id hi (fun a ha => (hl a ha).2 d h)

/-! ### The operations on many clusters -/

theorem onAll_fails {c : Cluster} (b : List (Nat × Nat)) : ∃ k,
    onAll c (b.map (fun p => Act.volC p.1 (fun v => { v with failCount := v.failCount + 1 }))) =
      { c with vol := { c.vol with failCount := k } } := by
  induction b generalizing c with
  | nil => exact ⟨c.vol.failCount, rfl⟩
  | cons p b ih =>
    simp only [List.map_cons, onAll_cons]
    by_cases h : c.row.name = p.1
    · rw [volC_on _ _ _ h]
      obtain ⟨k, e⟩ := ih (c := { c with vol := { c.vol with failCount := c.vol.failCount + 1 } })
      exact ⟨k, e⟩
    · rw [volC_off _ _ _ h]; exact ih

theorem CP.fc {bulk : Bool} {c : Cluster} (hp : CP bulk c) (k : Nat) :
    CP bulk { c with vol := { c.vol with failCount := k } } :=
  ⟨hp.tgt, hp.clo, hp.cnt, hp.stt, hp.sch, hp.nodup, hp.lfin, hp.sep, hp.lcre, hp.lnm, hp.ws⟩

theorem CV.fc {bulk : Bool} {c : Cluster} (hv : CV bulk c) (k : Nat) :
    CV bulk { c with vol := { c.vol with failCount := k } } :=
  ⟨hv.flS, hv.flT, hv.nw1, hv.nw2, hv.nwS, hv.ready, hv.shut,
      hv.rt1, hv.rt2, hv.rt3, hv.rt4, hv.rt5, hv.sup, hv.ws⟩

theorem fails_prefix {bulk : Bool} {c : Cluster} (h : CP bulk c) (b : List (Nat × Nat)) :
    AllPrefix (CP bulk) c (b.map (fun p => Act.volC p.1 (fun v => { v with failCount := v.failCount + 1 }))) := by
  induction b generalizing c with
  | nil => exact h
  | cons p b ih =>
    refine ⟨h, ih ?_⟩
    by_cases e : c.row.name = p.1
    · rw [volC_on _ _ _ e]; exact h.fc _
    · rw [volC_off _ _ _ e]; exact h

theorem checkWorkers_good {bulk : Bool} {c : Cluster} (h : Inv bulk c) (snap : List (Nat × Nat)) (sts : List Bool) :
    Good bulk c (checkWorkersActs snap sts) := by
  simp only [checkWorkersActs]
  generalize bad snap sts = b
  have hf : ∀ x, ((fun k x => if (k, x) ∈ b then ({ target := some .failed } : WUpd) else {}) c.row.name x = {} ∧
        (fun k x => decide ((k, x) ∈ b)) c.row.name x = false) ∨
      (∃ t : JobStatus, 5 ≤ t.n ∧ (fun k x => if (k, x) ∈ b then ({ target := some .failed } : WUpd) else {}) c.row.name x =
        { target := some t } ∧ (fun k x => decide ((k, x) ∈ b)) c.row.name x = true) := by
    intro x
    by_cases hx : (c.row.name, x) ∈ b
    · right; exact ⟨.failed, by simp, by simp [hx], by simp [hx]⟩
    · left; simp [hx]
  obtain ⟨g1, g2⟩ := retarget_good h (fun k x => if (k, x) ∈ b then ({ target := some .failed } : WUpd) else {})
    (fun k x => decide ((k, x) ∈ b)) hf
  obtain ⟨k, e⟩ := onAll_fails (c := (Act.updW (fun k x => if (k, x) ∈ b then ({ target := some .failed } : WUpd) else {})).onCluster c) b
  have comm (d : Cluster) (j : Nat) : (Act.putW (fun k x => decide ((k, x) ∈ b))).onCluster { d with vol := { d.vol with failCount := j } } =
    { (Act.putW (fun k x => decide ((k, x) ∈ b))).onCluster d with vol := { d.vol with failCount := j } } := by
    rw [putW_on, putW_on]
  have pv (d : Cluster) : ((Act.putW (fun k x => decide ((k, x) ∈ b))).onCluster d).vol = d.vol := by rw [putW_on]
  have G2 := (show Inv bulk ((Act.putW (fun k x => decide ((k, x) ∈ b))).onCluster
    ((Act.updW (fun k x => if (k, x) ∈ b then ({ target := some .failed } : WUpd) else {})).onCluster c)) from g2)
  have fin : Inv bulk ((Act.putW (fun k x => decide ((k, x) ∈ b))).onCluster
      { (Act.updW (fun k x => if (k, x) ∈ b then ({ target := some .failed } : WUpd) else {})).onCluster c with
        vol := { ((Act.updW (fun k x => if (k, x) ∈ b then ({ target := some .failed } : WUpd) else {})).onCluster c).vol with failCount := k } }) := by
    rw [comm, ← pv]
    exact ⟨G2.1.fc k, G2.2.fc k⟩
  constructor
  · refine AllPrefix.append (AllPrefix.append ⟨h.1, g1.2.1⟩ (fails_prefix g1.2.1 b)) ?_
    rw [onAll_append, onAll_cons, onAll_nil, e]
    exact ⟨g1.2.1.fc k, fin.1⟩
  · rw [onAll_append, onAll_append]
    change Inv bulk ((Act.putW _).onCluster (onAll ((Act.updW _).onCluster c) _))
    rw [e]
    exact fin

theorem timeout_good {cfg : Cfg} {s : State} {c : Cluster} (h : Inv cfg.bulk c) (now : Int) :
    Good cfg.bulk c (timeoutActs cfg s now) := by
  simp only [timeoutActs]
  split
  · exact Good.nil h
  · generalize (s.clusters.filter (fun c => timeoutCluster cfg now c = .fail)).map (fun c => c.row.name) = cs
    have g1 : Good cfg.bulk c [.updC (fun k => if k ∈ cs then { target := some .failed } else {}),
     .putC (fun k => decide (k ∈ cs))] := by
      refine stop_good h _ _ ?_
      by_cases hx : c.row.name ∈ cs
      · right; exact ⟨.failed, by simp, by simp [hx], by simp [hx]⟩
      · left; simp [hx]
    refine Good.append g1 (retarget_good g1.2 _ _ ?_)
    intro x
    simp only [onAll_name]
    cases h : (s.clusters.any (fun d => d.row.name == c.row.name &&
      d.workers.any (fun w => w.row.name == x && timeoutWorker cfg now d w.row)))
    · left; simp
    · right; exact ⟨.failed, by simp, by simp, rfl⟩

/-- The operations that neither create nor remove clusters. -/
def Op.plain : Op → Bool
  | .startCluster _ _ _ | .cleanup _ => false
  | _ => true

theorem acts_good {cfg : Cfg} {s : State} (hn : Named s) (hi : ∀ c ∈ s.clusters, Inv cfg.bulk c) (o : Op)
    (ho : o.plain = true) {d : Cluster} (hd : d ∈ s.clusters) :
    Good cfg.bulk d (acts cfg s o) ∧ (∀ a ∈ acts cfg s o, a.plain = true) ∧ Fresh s.next (acts cfg s o) := by
  have I := hi d hd
  have nil : Good cfg.bulk d ([] : List Act) ∧ (∀ a ∈ ([] : List Act), a.plain = true) ∧ Fresh s.next ([] : List Act) :=
    ⟨Good.nil I, by simp, trivial⟩
  have loc {n : Nat} {c : Cluster} (hc : s.find n = some c) {l : List Act} (hl : Local n l)
      (hf : Fresh s.next l) (hg : Inv cfg.bulk c → Good cfg.bulk c l) :
      Good cfg.bulk d l ∧ (∀ a ∈ l, a.plain = true) ∧ Fresh s.next l :=
    ⟨local_good hn hc hd I hl hg, fun a ha => (hl a ha).1, hf⟩
  have glob {l : List Act} (hq : Quiet l) (hg : Good cfg.bulk d l) :
      Good cfg.bulk d l ∧ (∀ a ∈ l, a.plain = true) ∧ Fresh s.next l :=
    ⟨hg, fun a ha => (hq a ha).1, Fresh.of_quiet hq⟩
  cases o with
  | startCluster u m n => simp [Op.plain] at ho
  | cleanup n => simp [Op.plain] at ho
  | checkClusters => exact nil
  | checkWorkers => exact nil
  | stopCluster n f =>
    simp only [acts]
    split
    · exact nil
    · rename_i c hc
      obtain ⟨hm, rfl⟩ := sfind_spec hc
      refine loc hc (stop_local c f) (.of_quiet (stop_quiet c f)) (fun i => ?_)
      simp only [stopClusterActs]
      split
      · refine stop_good i _ _ (Or.inr ⟨if f then .failed else .stopped, by cases f <;> simp, by simp, by simp⟩)
      · exact Good.nil i
  | heartbeat n m now =>
    simp only [acts]
    split
    · exact nil
    · rename_i c hc
      obtain ⟨hm, rfl⟩ := sfind_spec hc
      exact loc hc (hb_local c m now) (.of_quiet (hb_quiet c m now)) (fun i => heartbeat_good i m now)
  | shutdown =>
    simp only [acts, shutdownActs]
    refine glob (.cons (quiet_updC _) (.cons (quiet_putC _) .nil)) (stop_good I _ _ ?_)
    by_cases hx : d.row.name ∈ (s.clusters.filter (fun c => c.row.active)).map (fun c => c.row.name)
    · right; exact ⟨.failed, by simp, if_pos hx, decide_eq_true hx⟩
    · left; exact ⟨if_neg hx, decide_eq_false hx⟩
  | checkTimeouts now =>
    simp only [acts]
    refine glob ?_ (timeout_good I now)
    simp only [timeoutActs]
    exact .ite .nil (.cons (quiet_updC _) (.cons (quiet_putC _) (.cons (quiet_updW _) (.cons (quiet_putW _) .nil))))
  | checkClustersEnd sts =>
    simp only [acts]
    split
    · exact nil
    · rename_i l hl
      simp only [checkClustersActs]
      refine glob (.cons (quiet_updC _) (.cons (quiet_putC _) .nil)) (stop_good I _ _ ?_)
      by_cases hx : d.row.name ∈ bad l sts
      · right; exact ⟨.failed, by simp, if_pos hx, decide_eq_true hx⟩
      · left; exact ⟨if_neg hx, decide_eq_false hx⟩
  | checkWorkersEnd sts =>
    simp only [acts]
    split
    · exact nil
    · rename_i l hl
      exact glob (checkWorkers_quiet l sts) (checkWorkers_good I l sts)
  | getC n now =>
    simp only [acts]
    split
    · exact nil
    · rename_i c hc
      obtain ⟨hm, rfl⟩ := sfind_spec hc
      split
      · rename_i h
        exact loc hc (.cons (about_volC _ _) (reconcileC_local cfg s.next c now))
          (Fresh.append_quiet (l := [_]) (.cons (quiet_volC _ _) .nil) (reconcileC_fresh cfg s.next c now))
          (fun i => reconcileCluster_good i s.next now h.1 h.2 (names_bound.1 (hn.bound c hm).2))
      · exact nil
  | getW n w now =>
    simp only [acts]
    split
    · exact nil
    · rename_i c hc
      obtain ⟨hm, rfl⟩ := sfind_spec hc
      split
      · exact nil
      · rename_i x hx
        obtain ⟨hxm, rfl⟩ := find_spec hx
        split
        · rename_i h
          exact loc hc (.cons (about_volW _ _ _) (reconcileW_local cfg c x.row now))
            (.of_quiet (.cons (quiet_volW _ _ _) (reconcileW_quiet cfg c x.row now)))
            (fun i => reconcileWorker_good i now hxm h.2)
        · exact nil
  | yieldC n st =>
    simp only [acts]
    split
    · exact nil
    · rename_i c hc
      obtain ⟨hm, rfl⟩ := sfind_spec hc
      split
      · exact loc hc (.cons (about_updC1 _ _) (.nil _)) (.of_quiet (.cons (quiet_updC1 _ _) .nil))
          (fun i => yieldC_good i _ st)
      · exact nil
  | yieldW n w st =>
    simp only [acts]
    split
    · exact nil
    · rename_i c hc
      obtain ⟨hm, rfl⟩ := sfind_spec hc
      split
      · exact nil
      · split
        · exact loc hc (.cons (about_updW1 _ _ _) (.nil _)) (.of_quiet (.cons (quiet_updW1 _ _ _) .nil))
            (fun i => yieldW_good i _ w st)
        · exact nil
  | endStartC n ok =>
    simp only [acts]
    split
    · exact nil
    · rename_i c hc
      obtain ⟨hm, rfl⟩ := sfind_spec hc
      split
      · rename_i h
        exact loc hc (endStartC_local _ ok) (.of_quiet (endStartC_quiet _ ok)) (fun i => endStartC_good i ok h)
      · exact nil
  | endStopC n now =>
    simp only [acts]
    split
    · exact nil
    · rename_i c hc
      obtain ⟨hm, rfl⟩ := sfind_spec hc
      split
      · rename_i h
        exact loc hc (endStopC_local c now) (.of_quiet (endStopC_quiet c now)) (fun i => endStopC_good i now h)
      · exact nil
  | endStartW n w ok =>
    simp only [acts]
    split
    · exact nil
    · rename_i c hc
      obtain ⟨hm, rfl⟩ := sfind_spec hc
      split
      · exact nil
      · rename_i x hx
        obtain ⟨hxm, rfl⟩ := find_spec hx
        split
        · rename_i h
          exact loc hc (endStartW_local _ _ ok) (.of_quiet (endStartW_quiet _ _ ok)) (fun i => endStartW_good i ok hxm h)
        · exact nil
  | endStopW n w now =>
    simp only [acts]
    split
    · exact nil
    · rename_i c hc
      obtain ⟨hm, rfl⟩ := sfind_spec hc
      split
      · exact nil
      · rename_i x hx
        obtain ⟨hxm, rfl⟩ := find_spec hx
        split
        · rename_i h
          exact loc hc (endStopW_local cfg c x.row now) (.of_quiet (endStopW_quiet cfg c x.row now))
            (fun i => endStopW_good i now hxm h)
        · exact nil

end Verif.Backend
