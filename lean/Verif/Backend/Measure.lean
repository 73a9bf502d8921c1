import Verif.Backend.Forward
/-
A measure that every piece of work for a stopping cluster decreases.
-/
set_option linter.unusedSimpArgs false
set_option linter.unusedVariables false
namespace Verif.Backend

/-- Work left for a worker. -/
def wM (w : Worker) : Nat :=
  (if w.vol.pending then 4 else 0) +
  (match w.vol.fl with | .idle => 0 | .stopping => 3 | .starting => 5) +
  (if w.row.status.n = 1 ∧ w.row.target.n = 3 ∧ w.vol.fl = .idle then 2 else 0)

/-- Work left for a cluster itself. -/
def cM (r : CRow) (v : CVol) (k : Nat) : Nat :=
  (if v.pending then 2 else 0) +
  (match v.fl with | .idle => 0 | .stopping => 1 | .starting => 3) +
  (if r.status.n < 4 then 1 + 4 * k else 0)

/-- Work left for some workers. -/
def wsM (ws : List Worker) : Nat := (ws.map wM).sum

/-- Work left for a cluster and its workers. -/
def M (c : Cluster) : Nat := cM c.row c.vol c.workers.length + wsM c.workers

theorem wsM_cons (w : Worker) (ws : List Worker) : wsM (w :: ws) = wM w + wsM ws := by simp [wsM]

theorem wsM_map_le {ws : List Worker} {g : Worker → Worker} {k : Nat} (h : ∀ w ∈ ws, wM (g w) ≤ wM w + k) :
    wsM (ws.map g) ≤ wsM ws + k * ws.length := by
  induction ws with
  | nil => simp [wsM]
  | cons w ws ih =>
    have := ih (fun x hx => h x (by simp [hx]))
    have := h w (by simp)
    simp only [List.map_cons, wsM_cons, List.length_cons, Nat.mul_succ]
    omega

theorem wsM_onW {ws : List Worker} (hn : (names ws).Nodup) {w : Worker} (hw : w ∈ ws) {g : Worker → Worker} {a b : Nat}
    (h : wM (g w) + a ≤ wM w + b) :
    wsM (ws.map (fun y => if y.row.name = w.row.name then g y else y)) + a ≤ wsM ws + b := by
  induction ws with
  | nil => simp at hw
  | cons y ws ih =>
    simp only [names, List.map_cons, List.nodup_cons] at hn
    simp only [List.map_cons, wsM_cons]
    rcases List.mem_cons.1 hw with rfl | hw
    · have : ws.map (fun y => if y.row.name = w.row.name then g y else y) = ws :=
        map_id_of (fun z hz => if_neg (fun e => hn.1 (List.mem_map.2 ⟨z, hz, e⟩)))
      rw [this, if_pos rfl]
      omega
    · have ne : y.row.name ≠ w.row.name := fun e => hn.1 (List.mem_map.2 ⟨w, hw, e.symm⟩)
      have := ih hn.2 hw
      rw [if_neg ne]
      omega

theorem M_onW {c : Cluster} (hn : (names c.workers).Nodup) {w : Worker} (hw : w ∈ c.workers) {g : Worker → Worker} {a b : Nat}
    (h : wM (g w) + a ≤ wM w + b) : M (c.onW w.row.name g) + a ≤ M c + b := by
  have := wsM_onW hn hw h
  simp only [M, Cluster.onW, List.length_map]
  omega

/-- Only the cluster's own part changed. -/
theorem M_vol (c : Cluster) (r : CRow) (v : CVol) {a b : Nat} (h : cM r v c.workers.length + a ≤ cM c.row c.vol c.workers.length + b) :
    M { c with row := r, vol := v } + a ≤ M c + b := by
  simp only [M]; omega

theorem M_setPW {c : Cluster} (hn : (names c.workers).Nodup) {w : Worker} (hw : w ∈ c.workers) (hp : w.vol.pending = true) :
    M (c.setPW w.row.name false) + 4 ≤ M c :=
  M_onW (b := 0) hn hw (by simp [wM, hp]; omega)

/-- A reconciliation of a worker. -/
theorem getW_dec {cfg : Cfg} {c : Cluster} (h : Inv cfg.bulk c) (now : Int) {w : Worker} (hw : w ∈ c.workers)
    (hpd : w.vol.pending = true) (hi : w.vol.fl = .idle) :
    M (onAll c (.volW c.row.name w.row.name (fun v => { v with pending := false }) :: reconcileWorkerActs cfg c w.row now)) < M c := by
  have hp := h.1
  have hq := hp.ws w hw
  have e0 : (Act.volW c.row.name w.row.name (fun v => { v with pending := false })).onCluster c = c.setPW w.row.name false :=
    volW_onW _ _ _
  -- what the rest may cost
  have key (l : List Act) (hb : ∀ a ∈ l, a.blindW w.row.name) (hM : M (onAll c l) ≤ M c + 3)
      (hx : (names (onAll c l).workers).Nodup ∧ ∃ x ∈ (onAll c l).workers, x.row.name = w.row.name ∧ x.vol.pending = true) :
      M (onAll c (.volW c.row.name w.row.name (fun v => { v with pending := false }) :: l)) < M c := by
    rw [onAll_cons, e0, blindW_onAll hb]
    obtain ⟨x, hxm, hxn, hxp⟩ := hx.2
    have := M_setPW hx.1 hxm hxp
    rw [hxn] at this
    omega
  have nd (g : Worker → Worker) (hg : ∀ y, (g y).row.name = y.row.name) : (names (c.onW w.row.name g).workers).Nodup := by
    simp only [Cluster.onW]
    rw [names_map]
    · exact hp.nodup
    · intro y _; split <;> simp [hg]
  have keyW (l : List Act) (hb : ∀ a ∈ l, a.blindW w.row.name) (g : Worker → Worker) (v : CVol)
      (e : onAll c l = { c.onW w.row.name g with vol := v }) (hg : ∀ y, (g y).row.name = y.row.name)
      (hgp : (g w).vol.pending = true) (k : Nat) (hk : k ≤ 3) (hgM : wM (g w) ≤ wM w + k)
      (hv : cM c.row v c.workers.length ≤ cM c.row c.vol c.workers.length + (3 - k)) :
      M (onAll c (.volW c.row.name w.row.name (fun v => { v with pending := false }) :: l)) < M c := by
    refine key l hb ?_ ?_
    · rw [e]
      have h1 := M_onW (a := 0) (b := k) (g := g) hp.nodup hw (by omega)
      have h2 := M_vol (c.onW w.row.name g) c.row v (a := 0) (b := 3 - k) (by simpa [Cluster.onW] using hv)
      have e' : ({ c.onW w.row.name g with row := c.row, vol := v } : Cluster) = { c.onW w.row.name g with vol := v } := rfl
      rw [e'] at h2
      omega
    · rw [e]
      exact ⟨nd g hg, g w, mem_onW hw rfl, hg w, hgp⟩
  have keyN (l : List Act) (hb : ∀ a ∈ l, a.blindW w.row.name) (v : CVol)
      (e : onAll c l = { c with vol := v })
      (hv : cM c.row v c.workers.length ≤ cM c.row c.vol c.workers.length + 3) :
      M (onAll c (.volW c.row.name w.row.name (fun v => { v with pending := false }) :: l)) < M c := by
    refine key l hb ?_ ?_
    · rw [e]; exact M_vol c c.row v (a := 0) (b := 3) (by omega)
    · rw [e]; exact ⟨hp.nodup, w, hw, rfl, hpd⟩
  have cMp (p : Bool) (k : Nat) : cM c.row { c.vol with pending := p } k ≤ cM c.row c.vol k + 2 := by
    simp only [cM]; cases p <;> simp <;> omega
  simp only [reconcileWorkerActs]
  split
  · exact keyN [] (by simp) c.vol rfl (by omega)
  · rename_i h5
    have h5 : w.row.status.n < 5 := Nat.lt_of_not_le h5
    split
    · rename_i ht
      rw [n_eq4] at ht
      by_cases h4 : w.row.status = .closing
      · simp only [h4, if_true, List.nil_append]
        split
        · refine keyN _ (by intro a ha; simp at ha; subst ha; exact blindW_putC _ _) { c.vol with pending := true } ?_ ?_
          · rw [onAll_cons, onAll_nil, putC1_on _ _ rfl]
          · have := cMp true c.workers.length; omega
        · exact keyN [] (by simp) c.vol rfl (by omega)
      · simp only [h4, if_false]
        rw [n_eq4] at h4
        obtain ⟨-, p, e⟩ := closeW_good h hw hi (by omega) ht
        refine keyW _ ?_ _ _ e (fun _ => rfl) hpd 0 (by omega) ?_ ?_
        · intro a ha
          simp only [List.mem_append, List.mem_singleton] at ha
          rcases ha with rfl | ha
          · exact blindW_updW _ _
          · split at ha
            · simp at ha; subst ha; exact blindW_putC _ _
            · simp at ha
        · simp [wM]
        · have := cMp p c.workers.length; omega
    · rename_i ht4
      rw [n_eq4] at ht4
      split
      · rename_i ht
        have ht : 5 ≤ w.row.target.n := by rw [n_ge5]; exact ht
        split
        · rename_i h1
          have h1 : 1 < w.row.status.n := h1
          obtain ⟨-, e⟩ := beginStopW_good h hw hi h1 h5 ht
          refine keyW _ ?_ _ _ e (fun _ => rfl) hpd 3 (by omega) ?_ ?_
          · intro a ha
            simp at ha
            rcases ha with rfl | rfl
            · exact blindW_volW _ _ _ _ (fun _ _ => rfl)
            · exact blindW_volC _ _ _
          · simp [wM, hi]
          · exact Nat.le_refl _
        · rename_i h1
          have h1 : ¬ 1 < w.row.status.n := h1
          have hr := n_range w.row.status
          have hl : wst cfg.bulk w.row.name c.vol.log = .off ∨ wst cfg.bulk w.row.name c.vol.log = .lost := by
            have a1 := hq.lcre (by omega)
            have a2 : wst cfg.bulk w.row.name c.vol.log ≠ .starting := fun e => by
              have := hq.lop e; rw [hi] at this; simp at this
            generalize wst cfg.bulk w.row.name c.vol.log = z at a1 a2
            cases z <;> simp at a1 a2 ⊢
          obtain ⟨-, p, e⟩ := workerStopped_good h now hw (by rw [hi]; simp) ht hl
          refine keyW _ ?_ _ _ e (fun _ => rfl) hpd 0 (by omega) ?_ ?_
          · intro a ha
            simp only [workerStoppedActs, List.mem_append, List.mem_singleton] at ha
            rcases ha with rfl | ha
            · exact blindW_updW _ _
            · split at ha
              · simp at ha; subst ha; exact blindW_putC _ _
              · simp at ha
          · have : ¬ w.row.target.n = 1 := by omega
            simp [wM, this]
          · have := cMp p c.workers.length; omega
      · rename_i ht
        split
        · rename_i h1
          obtain ⟨-, e⟩ := beginStartW_good h hw hi (n_eq1.1 h1.1) (n_eq3.1 h1.2)
          refine keyW _ ?_ _ _ e (fun _ => rfl) hpd 3 (by omega) ?_ ?_
          · intro a ha
            simp at ha
            rcases ha with rfl | rfl
            · exact blindW_volW _ _ _ _ (fun _ _ => rfl)
            · exact blindW_volC _ _ _
          · simp [wM, hi, n_eq1.1 h1.1, n_eq3.1 h1.2]
          · exact Nat.le_refl _
        · exact keyN [] (by simp) c.vol rfl (by omega)

/-- A reconciliation of a cluster that was asked to stop. -/
theorem getC_dec {cfg : Cfg} {c : Cluster} (h : Inv cfg.bulk c) (next : Nat) (now : Int) (ht : 5 ≤ c.row.target.n)
    (hpd : c.vol.pending = true) (hi : c.vol.fl = .idle) :
    M (onAll c (.volC c.row.name (fun v => { v with pending := false }) :: reconcileClusterActs cfg next c now)) < M c := by
  have e0 : (Act.volC c.row.name (fun v => { v with pending := false })).onCluster c = c.setP false := volC_on _ _ _ rfl
  have base : M (c.setP false) + 2 ≤ M c := M_vol c c.row { c.vol with pending := false } (b := 0) (by simp [cM, hpd]; omega)
  rw [onAll_cons, e0]
  simp only [reconcileClusterActs]
  split
  · rw [onAll_nil]; omega
  · rename_i h5
    have h5 : c.row.status.n < 5 := Nat.lt_of_not_le h5
    rw [if_pos (n_ge5.1 ht)]
    split
    · rename_i h4
      have h4' := n_eq4.1 h4
      split
      · split
        · rw [onAll_cons, onAll_nil, volC_on c.row.name _ (c.setP false) rfl]
          refine Nat.lt_of_le_of_lt (M_vol (c.setP false) (c.setP false).row _ (a := 0) (b := 1) ?_) (by omega)
          simp [cM, Cluster.setP, CVol.addLog, hi]; omega
        · rename_i h1
          have : ¬ 1 < c.row.status.n := h1
          omega
      · rw [onAll_nil]; omega
    · rename_i h4
      rw [n_eq4] at h4
      have h4 : c.row.status.n < 4 := by omega
      simp only [toClosingActs]
      generalize names (c.workers.filter (fun w => decide (w.row.target.n < (closeTarget cfg.bulk).n))) = ws
      have hn : (c.setP false).row.name = c.row.name := rfl
      have e1 : onAll (c.setP false) [updWs c.row.name ws { target := some (closeTarget cfg.bulk) }, putWs c.row.name ws,
          updC1 c.row.name { status := some .closing }] =
          { row := { c.row with status := .closing }
            vol := { c.vol with pending := false }
            workers := (c.workers.map (fun w => if w.row.name ∈ ws then
              { w with row := { w.row with target := closeTarget cfg.bulk } } else w)).map
              (fun w => if w.row.name ∈ ws then { w with vol := { w.vol with pending := true } } else w) } := by
        rw [onAll_cons, onAll_cons, onAll_cons, onAll_nil, updWs_on _ _ _ _ hn, putWs_on _ _ _ (by rfl), updC1_on _ _ _ (by rfl)]
        rfl
      rw [onAll_append, onAll_append, e1]
      have w1 : wsM (c.workers.map (fun w => if w.row.name ∈ ws then
              { w with row := { w.row with target := closeTarget cfg.bulk } } else w)) ≤ wsM c.workers + 0 * c.workers.length := by
        refine wsM_map_le (fun w _ => ?_)
        split
        · have : ¬ (closeTarget cfg.bulk).n = 3 := by rw [closeTarget_n]; split <;> omega
          simp [wM, this]
        · omega
      have w2 := wsM_map_le (k := 4) (ws := c.workers.map (fun w => if w.row.name ∈ ws then
              { w with row := { w.row with target := closeTarget cfg.bulk } } else w))
            (g := fun w => if w.row.name ∈ ws then { w with vol := { w.vol with pending := true } } else w) (fun w _ => by
        split
        · simp only [wM]; cases w.vol.pending <;> simp <;> omega
        · omega)
      rw [List.length_map] at w2
      have done (p : Bool) (v : CVol) (hv : v.pending = p) (hf : v.fl = .idle) :
          M { row := { c.row with status := .closing }
              vol := v
              workers := (c.workers.map (fun w => if w.row.name ∈ ws then
                { w with row := { w.row with target := closeTarget cfg.bulk } } else w)).map
                (fun w => if w.row.name ∈ ws then { w with vol := { w.vol with pending := true } } else w) } < M c := by
        have : cM c.row c.vol c.workers.length = 2 + (1 + 4 * c.workers.length) := by simp [cM, hpd, hi, h4]
        have h2 (k : Nat) : cM { c.row with status := .closing } v k ≤ 2 := by
          subst hv
          cases e : v.pending <;> simp [cM, hf, e]
        have w3 := Nat.le_trans w2 (Nat.add_le_add_right w1 _)
        refine Nat.lt_of_le_of_lt (Nat.add_le_add (h2 _) w3) ?_
        simp only [M]
        omega
      by_cases hw : ws = []
      · rw [if_pos hw, onAll_cons, onAll_nil, onAll_cons, onAll_nil, putC1_on _ _ (by rfl), volC_on _ _ _ (by rfl)]
        exact done true _ rfl hi
      · rw [if_neg hw, onAll_nil, onAll_cons, onAll_nil, volC_on _ _ _ (by rfl)]
        exact done false _ rfl hi

theorem endStartC_dec {bulk : Bool} {c : Cluster} (h : Inv bulk c) (ok : Bool) (hs : c.vol.fl = .starting) :
    M (onAll c (endStartClusterActs c.row.name ok)) < M c := by
  have h1 := h.2.flS hs
  cases ok with
  | true =>
    have e : onAll c (endStartClusterActs c.row.name true) = { c with
        row := { c.row with status := .submitted }, vol := { CVol.addLog .startedCluster c.vol with fl := .idle } } := by
      simp only [endStartClusterActs, if_true, List.cons_append, List.nil_append]
      rw [onAll_cons, onAll_cons, onAll_nil, updC1_on _ _ _ rfl, volC_on _ _ _ (by rfl)]
      rfl
    rw [e]
    have := M_vol c { c.row with status := .submitted } { CVol.addLog .startedCluster c.vol with fl := .idle } (a := 3) (b := 0)
      (by simp [cM, hs, h1, CVol.addLog]; omega)
    omega
  | false =>
    have e : onAll c (endStartClusterActs c.row.name false) = { c with
        row := { c.row with status := .submitted, target := .failed },
        vol := { CVol.addLog .startedCluster { c.vol with pending := true } with fl := .idle } } := by
      simp only [endStartClusterActs, Bool.false_eq_true, if_false, List.cons_append, List.nil_append]
      rw [onAll_cons, onAll_cons, onAll_cons, onAll_nil, updC1_on _ _ _ rfl, putC1_on _ _ (by rfl), volC_on _ _ _ (by rfl)]
      rfl
    rw [e]
    have := M_vol c { c.row with status := .submitted, target := .failed }
      { CVol.addLog .startedCluster { c.vol with pending := true } with fl := .idle } (a := 3) (b := 2)
      (by simp only [cM, hs, h1, CVol.addLog, submitted_n]; cases c.vol.pending <;> simp <;> omega)
    omega

theorem endStopC_dec {bulk : Bool} {c : Cluster} (h : Inv bulk c) (now : Int) (hs : c.vol.fl = .stopping) :
    M (onAll c (endStopClusterActs c now)) < M c := by
  obtain ⟨h4, -⟩ := h.2.flT hs
  have ht := h.1.clo (by omega)
  simp only [endStopClusterActs, stoppedActs]
  generalize names (c.workers.filter (fun w => decide (w.row.status.n < JobStatus.stopped.n))) = ws
  have e : onAll c ([.volC c.row.name removeRoutes] ++
      [updWs c.row.name ws { status := some .stopped, target := some .stopped },
       updC1 c.row.name { status := some c.row.target, stopTime := some now },
       .volC c.row.name (fun v => { v with ready := true, shutdown := true })] ++
      [.volC c.row.name (fun v => { v with fl := .idle })]) =
      { row := { c.row with status := c.row.target, stopTime := some now }
        vol := { removeRoutes c.vol with ready := true, shutdown := true, fl := .idle }
        workers := c.workers.map (fun w => if w.row.name ∈ ws then
          { w with row := { w.row with status := .stopped, target := .stopped } } else w) } := by
    simp only [List.cons_append, List.nil_append]
    rw [onAll_cons, volC_on _ _ _ rfl, onAll_cons, updWs_on _ _ _ _ (by rfl), onAll_cons,
      updC1_on _ _ _ (by rfl), onAll_cons, volC_on _ _ _ (by rfl), onAll_cons, volC_on _ _ _ (by rfl), onAll_nil]
    rfl
  rw [e]
  have w1 : wsM (c.workers.map (fun w => if w.row.name ∈ ws then
          { w with row := { w.row with status := .stopped, target := .stopped } } else w)) ≤ wsM c.workers + 0 * c.workers.length := by
    refine wsM_map_le (fun w _ => ?_)
    split
    · simp [wM]
    · omega
  have n4 : ¬ c.row.target.n < 4 := by omega
  have n4' : ¬ c.row.status.n < 4 := by omega
  have h2 (k : Nat) : cM { c.row with status := c.row.target, stopTime := some now }
      { removeRoutes c.vol with ready := true, shutdown := true, fl := .idle } k + 1 ≤ cM c.row c.vol c.workers.length := by
    simp [cM, removeRoutes, hs, n4, n4']
  rw [Nat.zero_mul, Nat.add_zero] at w1
  exact Nat.add_lt_add_of_lt_of_le (h2 _) w1

theorem endStopW_dec {cfg : Cfg} {c : Cluster} (h : Inv cfg.bulk c) (now : Int) {w : Worker}
    (hw : w ∈ c.workers) (hs : w.vol.fl = .stopping) :
    M (onAll c (endStopWorkerActs cfg c w.row now)) < M c := by
  obtain ⟨hp, hv⟩ := h
  obtain ⟨ht, hoff⟩ := (hv.ws w hw).flT hs
  obtain ⟨g, p, e⟩ := workerStopped_good ⟨hp, hv⟩ now hw (by rw [hs]; simp) ht (Or.inl hoff)
  simp only [endStopWorkerActs]
  rw [onAll_append, e]
  have e2 : onAll { c.onW w.row.name (fun y => { y with row := { y.row with status := w.row.target, stopTime := some now } }) with
        vol := { c.vol with pending := p } } [.volW c.row.name w.row.name (fun v => { v with fl := .idle })] =
      { c.onW w.row.name (fun y => { row := { y.row with status := w.row.target, stopTime := some now }, vol := { y.vol with fl := .idle } }) with
        vol := { c.vol with pending := p } } := by
    rw [onAll_cons, onAll_nil]
    refine Eq.trans (volW_onW { c.onW w.row.name (fun y => { y with row := { y.row with status := w.row.target, stopTime := some now } }) with
        vol := { c.vol with pending := p } } w.row.name (fun v => { v with fl := .idle })) ?_
    have := onW_onW c w.row.name (fun y => { y with row := { y.row with status := w.row.target, stopTime := some now } })
      (fun y => { y with vol := { y.vol with fl := .idle } }) (fun _ => rfl)
    exact congrArg (fun d : Cluster => ({ d with vol := { c.vol with pending := p } } : Cluster)) this
  rw [e2]
  have n1 : ¬ w.row.target.n = 1 := by omega
  have h1 := M_onW (a := 3) (b := 0) hp.nodup hw
    (g := fun y => { row := { y.row with status := w.row.target, stopTime := some now }, vol := { y.vol with fl := .idle } })
    (by simp [wM, hs, n1])
  have h2 := M_vol (c.onW w.row.name (fun y => { row := { y.row with status := w.row.target, stopTime := some now }, vol := { y.vol with fl := .idle } }))
    c.row { c.vol with pending := p } (a := 0) (b := 2) (by
      simp only [cM, Cluster.onW]
      cases p <;> simp <;> omega)
  have e' : ({ c.onW w.row.name (fun y => { row := { y.row with status := w.row.target, stopTime := some now }, vol := { y.vol with fl := .idle } }) with row := c.row, vol := { c.vol with pending := p } } : Cluster) =
    { c.onW w.row.name (fun y => { row := { y.row with status := w.row.target, stopTime := some now }, vol := { y.vol with fl := .idle } }) with vol := { c.vol with pending := p } } := rfl
  rw [e'] at h2
  omega

theorem endStartW_dec {bulk : Bool} {c : Cluster} (h : Inv bulk c) (ok : Bool) {w : Worker}
    (hw : w ∈ c.workers) (hs : w.vol.fl = .starting) :
    M (onAll c (endStartWorkerActs c.row.name w.row.name ok)) < M c := by
  obtain ⟨hp, hv⟩ := h
  cases ok with
  | true =>
    have e : onAll c (endStartWorkerActs c.row.name w.row.name true) =
        { c.onW w.row.name (fun y => { row := { y.row with status := .submitted }, vol := { y.vol with fl := .idle } }) with
          vol := CVol.addLog (.startedWorker w.row.name) c.vol } := by
      simp only [endStartWorkerActs, if_true, List.cons_append, List.nil_append]
      rw [onAll_cons, onAll_cons, onAll_cons, onAll_nil, updW1_onW, volC_on _ _ _ (by rfl)]
      refine Eq.trans (volW_onW { c.onW w.row.name (fun y => { y with row := WUpd.app { status := some .submitted } y.row }) with
          vol := CVol.addLog (.startedWorker w.row.name) c.vol } w.row.name (fun v => { v with fl := .idle })) ?_
      have := onW_onW c w.row.name (fun y => { y with row := WUpd.app { status := some .submitted } y.row })
        (fun y => { y with vol := { y.vol with fl := .idle } }) (fun _ => rfl)
      exact congrArg (fun d : Cluster => ({ d with vol := CVol.addLog (.startedWorker w.row.name) c.vol } : Cluster)) this
    rw [e]
    have h1 := M_onW (a := 5) (b := 0) hp.nodup hw
      (g := fun y => { row := { y.row with status := .submitted }, vol := { y.vol with fl := .idle } }) (by simp [wM, hs])
    have h2 := M_vol (c.onW w.row.name (fun y => { row := { y.row with status := .submitted }, vol := { y.vol with fl := .idle } }))
      c.row (CVol.addLog (.startedWorker w.row.name) c.vol) (a := 0) (b := 0) (Nat.le_refl _)
    have e' : ({ c.onW w.row.name (fun y => { row := { y.row with status := .submitted }, vol := { y.vol with fl := .idle } }) with
        row := c.row, vol := CVol.addLog (.startedWorker w.row.name) c.vol } : Cluster) =
      { c.onW w.row.name (fun y => { row := { y.row with status := .submitted }, vol := { y.vol with fl := .idle } }) with
        vol := CVol.addLog (.startedWorker w.row.name) c.vol } := rfl
    rw [e'] at h2
    omega
  | false =>
    let v1 : CVol := { c.vol with failCount := c.vol.failCount + 1 }
    let g1 : Worker → Worker := fun y => { y with row := WUpd.app { status := some .submitted, target := some .failed } y.row }
    let g2 : Worker → Worker := fun y => { g1 y with vol := { (g1 y).vol with pending := true } }
    let g3 : Worker → Worker := fun y => { g2 y with vol := { (g2 y).vol with fl := .idle } }
    have e : onAll c (endStartWorkerActs c.row.name w.row.name false) =
        { c.onW w.row.name g3 with vol := CVol.addLog (.startedWorker w.row.name) v1 } := by
      simp only [endStartWorkerActs, Bool.false_eq_true, if_false, List.cons_append, List.nil_append]
      rw [onAll_cons, updW1_onW, onAll_cons, volC_on _ _ _ (by rfl), onAll_cons]
      have e3 : (putWs c.row.name [w.row.name]).onCluster { c.onW w.row.name g1 with vol := v1 } =
        { c.onW w.row.name g2 with vol := v1 } := by
        refine Eq.trans (putWs_onW { c.onW w.row.name g1 with vol := v1 } w.row.name) ?_
        have := onW_onW c w.row.name g1 (fun y => { y with vol := { y.vol with pending := true } }) (fun _ => rfl)
        exact congrArg (fun d : Cluster => ({ d with vol := v1 } : Cluster)) this
      refine Eq.trans (congrArg (fun d => onAll d _) e3) ?_
      rw [onAll_cons, volC_on _ _ _ (by rfl), onAll_cons, onAll_nil]
      refine Eq.trans (volW_onW { c.onW w.row.name g2 with vol := CVol.addLog (.startedWorker w.row.name) v1 }
        w.row.name (fun v => { v with fl := .idle })) ?_
      have := onW_onW c w.row.name g2 (fun y => { y with vol := { y.vol with fl := .idle } }) (fun _ => rfl)
      exact congrArg (fun d : Cluster => ({ d with vol := CVol.addLog (.startedWorker w.row.name) v1 } : Cluster)) this
    rw [e]
    have h1 := M_onW (a := 5) (b := 4) hp.nodup hw (g := g3)
      (by simp only [wM, hs, g3, g2, g1, WUpd.app]; cases w.vol.pending <;> simp)
    have h2 := M_vol (c.onW w.row.name g3) c.row (CVol.addLog (.startedWorker w.row.name) v1) (a := 0) (b := 0)
      (Nat.le_refl _)
    have e' : ({ c.onW w.row.name g3 with row := c.row, vol := CVol.addLog (.startedWorker w.row.name) v1 } : Cluster) =
      { c.onW w.row.name g3 with vol := CVol.addLog (.startedWorker w.row.name) v1 } := rfl
    rw [e'] at h2
    omega

/-- Every piece of work for a cluster that was asked to stop decreases the measure. -/
theorem work_dec {cfg : Cfg} {s : State} (hi : SInv cfg s) {c : Cluster} (hc : c ∈ s.clusters) (ht : 5 ≤ c.row.target.n)
    {o : Op} (ho : o.cluster = some c.row.name) (he : acts cfg s o ≠ []) : M (onAll c (acts cfg s o)) < M c := by
  have hf := sfind_mem hi.named.nodup hc
  have I := hi.inv c hc
  cases o with
  | getC n now =>
    simp only [Op.cluster, Option.some.injEq] at ho
    subst ho
    simp only [acts, hf] at he ⊢
    split at he
    · rename_i h
      rw [if_pos h]
      exact getC_dec I s.next now ht h.1 h.2
    · simp at he
  | getW n w now =>
    simp only [Op.cluster, Option.some.injEq] at ho
    subst ho
    simp only [acts, hf] at he ⊢
    cases hx : c.find w with
    | none => simp [hx] at he
    | some x =>
      obtain ⟨hxm, rfl⟩ := find_spec hx
      simp only [hx] at he ⊢
      split at he
      · rename_i h
        rw [if_pos h]
        exact getW_dec I now hxm h.1 h.2
      · simp at he
  | endStartC n ok =>
    simp only [Op.cluster, Option.some.injEq] at ho
    subst ho
    simp only [acts, hf] at he ⊢
    split at he
    · rename_i h
      rw [if_pos h]
      exact endStartC_dec I ok h
    · simp at he
  | endStopC n now =>
    simp only [Op.cluster, Option.some.injEq] at ho
    subst ho
    simp only [acts, hf] at he ⊢
    split at he
    · rename_i h
      rw [if_pos h]
      exact endStopC_dec I now h
    · simp at he
  | endStartW n w ok =>
    simp only [Op.cluster, Option.some.injEq] at ho
    subst ho
    simp only [acts, hf] at he ⊢
    cases hx : c.find w with
    | none => simp [hx] at he
    | some x =>
      obtain ⟨hxm, rfl⟩ := find_spec hx
      simp only [hx] at he ⊢
      split at he
      · rename_i h
        rw [if_pos h]
        exact endStartW_dec I ok hxm h
      · simp at he
  | endStopW n w now =>
    simp only [Op.cluster, Option.some.injEq] at ho
    subst ho
    simp only [acts, hf] at he ⊢
    cases hx : c.find w with
    | none => simp [hx] at he
    | some x =>
      obtain ⟨hxm, rfl⟩ := find_spec hx
      simp only [hx] at he ⊢
      split at he
      · rename_i h
        rw [if_pos h]
        exact endStopW_dec I now hxm h
      · simp at he
  | _ => simp [Op.cluster] at ho

theorem wM_le (w : Worker) : wM w ≤ 9 := by
  simp only [wM]
  cases w.vol.pending <;> cases w.vol.fl <;> simp <;> split <;> omega

theorem M_le {bulk : Bool} {c : Cluster} (h : Inv bulk c) : M c ≤ 6 + 13 * c.workers.length := by
  have h1 : wsM c.workers ≤ 9 * c.workers.length := by
    generalize c.workers = ws
    induction ws with
    | nil => simp [wsM]
    | cons w ws ih => have := wM_le w; simp only [wsM_cons, List.length_cons]; omega
  have h2 : cM c.row c.vol c.workers.length ≤ 6 + 4 * c.workers.length := by
    simp only [cM]
    cases c.vol.pending <;> cases c.vol.fl <;> simp <;> split <;> omega
  simp only [M]; omega

end Verif.Backend
