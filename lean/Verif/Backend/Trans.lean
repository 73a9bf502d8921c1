import Verif.Backend.Inv
/-
Elementary transitions of one cluster that keep the invariant.
-/
set_option linter.unusedSimpArgs false
set_option linter.unusedVariables false
namespace Verif.Backend

theorem wactive_iff {r : WRow} : r.active = true ↔ r.target.n < 5 := decide_eq_true_iff
theorem cactive_iff {r : CRow} : r.active = true ↔ r.target.n < 5 := decide_eq_true_iff

theorem allAtLeast_iff {c : Cluster} {s : JobStatus} :
    c.allAtLeast s = true ↔ ∀ w ∈ c.workers, s.n ≤ w.row.status.n := by
  simp [Cluster.allAtLeast]

theorem ready_iff {bulk : Bool} {c : Cluster} :
    c.readyToClose bulk = true ↔
      (c.row.status.n = 4 ∧ bulk = true ∧ ∀ w ∈ c.workers, 4 ≤ w.row.status.n) ∨
      ∀ w ∈ c.workers, 5 ≤ w.row.status.n := by
  simp [Cluster.readyToClose, allAtLeast_iff, n_eq4]

/-- Readiness of a closing cluster. -/
theorem ready_closing {bulk : Bool} {c : Cluster} (h : c.row.status.n = 4) :
    c.readyToClose bulk = true ↔ ∀ w ∈ c.workers, (closeTarget bulk).n ≤ w.row.status.n := by
  rw [ready_iff, closeTarget_n]
  cases bulk
  · simp
  · simp only [h, true_and, if_true]
    constructor
    · rintro (h | h) w hw
      · exact h w hw
      · have := h w hw; omega
    · exact fun h => Or.inl h

theorem CP.mapWorkers {bulk : Bool} {c : Cluster} {g : Worker → Worker} (h : CP bulk c)
    (hn : ∀ w ∈ c.workers, (g w).row.name = w.row.name)
    (ha : ∀ w ∈ c.workers, (g w).row.active = true → w.row.active = true)
    (hw : ∀ w ∈ c.workers, WP bulk c.row.status c.row.target c.vol.log (g w)) :
    CP bulk { c with workers := c.workers.map g } where
  tgt := h.tgt
  clo := h.clo
  cnt := fun k hk => ⟨(h.cnt k hk).1, Nat.le_trans (filter_map_le ha) (h.cnt k hk).2⟩
  stt := h.stt
  sch := h.sch
  nodup := by rw [names_map hn]; exact h.nodup
  lfin := h.lfin
  sep := h.sep
  lcre := h.lcre
  lnm := by intro x hx; rw [names_map hn]; exact h.lnm x hx
  ws := by
    intro w' hw'
    obtain ⟨w, hm, rfl⟩ := List.mem_map.1 hw'
    exact hw w hm

theorem CV.mapWorkers {bulk : Bool} {c : Cluster} {g : Worker → Worker} (h : CV bulk c)
    (hr : c.row.status.n = 4 → ∀ w ∈ c.workers,
      (closeTarget bulk).n ≤ (g w).row.status.n → (closeTarget bulk).n ≤ w.row.status.n)
    (hs : c.row.status.n = 3 → c.row.target.n = 3 → c.vol.pending = false →
      ∀ w ∈ c.workers, w.supplies = true → (g w).supplies = true)
    (hw : ∀ w ∈ c.workers, WV bulk c.vol.fl c.vol.log (g w)) :
    CV bulk { c with workers := c.workers.map g } where
  flS := h.flS
  flT := h.flT
  nw1 := h.nw1
  nw2 := by
    intro h4 hready
    have hready := (ready_closing (c := { c with workers := c.workers.map g }) h4).1 hready
    refine h.nw2 h4 ((ready_closing (c := c) h4).2 ?_)
    intro w hm
    exact hr h4 w hm (hready (g w) (List.mem_map.2 ⟨w, hm, rfl⟩))
  nwS := h.nwS
  ready := h.ready
  shut := h.shut
  rt1 := h.rt1
  rt2 := h.rt2
  rt3 := h.rt3
  rt4 := h.rt4
  rt5 := h.rt5
  sup := by
    intro h3 ht hp
    have h1 := h.sup h3 ht hp
    have h2 : c.supply ≤ ((c.workers.map g).filter Worker.supplies).length :=
      filter_map_ge (hs h3 ht hp)
    simp only [Cluster.supply] at h1 h2 ⊢
    omega
  ws := by
    intro w' hw'
    obtain ⟨w, hm, rfl⟩ := List.mem_map.1 hw'
    exact hw w hm

/-- A worker's target becomes `STOPPED` or `FAILED`. -/
theorem WP.retarget {bulk : Bool} {cs ct : JobStatus} {log : List Ext} {w : Worker} {t : JobStatus}
    (h : WP bulk cs ct log w) (ht : 5 ≤ t.n) :
    WP bulk cs ct log { w with row := { w.row with target := t } } where
  tg := by simp; omega
  fin := fun _ => ht
  clo := fun h4 => ⟨(h.clo h4).1, by simp; omega⟩
  tclo := fun h4 => by simp at h4; omega
  cfin := h.cfin
  ccl := fun _ => by rw [closeTarget_n]; simp; split <;> omega
  lfin := h.lfin
  lcre := h.lcre
  lop := h.lop

theorem WP.pend {bulk : Bool} {cs ct : JobStatus} {log : List Ext} {w : Worker} {b : Bool}
    (h : WP bulk cs ct log w) :
    WP bulk cs ct log { w with vol := { w.vol with pending := b } } :=
  ⟨h.tg, h.fin, h.clo, h.tclo, h.cfin, h.ccl, h.lfin, h.lcre, h.lop⟩

theorem WV.retarget {bulk : Bool} {cf : Flight} {log : List Ext} {w : Worker} {t : JobStatus}
    (h : WV bulk cf log w) (ht : 5 ≤ t.n) :
    WV bulk cf log { row := { w.row with target := t }, vol := { w.vol with pending := true } } where
  flS := h.flS
  flT := fun e => ⟨ht, (h.flT e).2⟩
  nw3 := fun _ _ => Or.inl rfl
  nw4 := fun _ _ => rfl
  nw5 := fun _ _ _ => rfl
  cT := h.cT

/-- Some workers are given target `STOPPED` or `FAILED` and put into the queue. -/
theorem retarget_good {bulk : Bool} {c : Cluster} (h : Inv bulk c) (f : Nat → Nat → WUpd)
    (q : Nat → Nat → Bool)
    (hf : ∀ x, (f c.row.name x = {} ∧ q c.row.name x = false) ∨
      (∃ t : JobStatus, 5 ≤ t.n ∧ f c.row.name x = { target := some t } ∧ q c.row.name x = true)) :
    AllPrefix (CP bulk) c [.updW f, .putW q] ∧ Inv bulk (onAll c [.updW f, .putW q]) := by
  obtain ⟨hp, hv⟩ := h
  have key (w : Worker) :
      ({ w with row := (f c.row.name w.row.name).app w.row } = w ∧ q c.row.name w.row.name = false) ∨
      ∃ t : JobStatus, 5 ≤ t.n ∧ q c.row.name w.row.name = true ∧
        { w with row := (f c.row.name w.row.name).app w.row } =
        { w with row := { w.row with target := t } } := by
    rcases hf w.row.name with ⟨e, eq⟩ | ⟨t, ht, e, eq⟩
    · left; simp [e, eq]
    · right; exact ⟨t, ht, eq, by simp [e, WUpd.app]⟩
  have h1 : CP bulk ((Act.updW f).onCluster c) := by
    rw [updW_on]
    refine hp.mapWorkers (fun _ _ => rfl) ?_ ?_
    · intro w hw
      rcases key w with ⟨e, -⟩ | ⟨t, ht, -, e⟩
      · rw [e]; exact id
      · rw [e]; intro hx; rw [wactive_iff] at hx; exact absurd hx (Nat.not_lt.2 ht)
    · intro w hw
      rcases key w with ⟨e, -⟩ | ⟨t, ht, -, e⟩
      · rw [e]; exact hp.ws w hw
      · rw [e]; exact (hp.ws w hw).retarget ht
  have e2 : (Act.putW q).onCluster ((Act.updW f).onCluster c) =
      { c with workers := c.workers.map (fun w =>
        if q c.row.name w.row.name then
          { row := (f c.row.name w.row.name).app w.row, vol := { w.vol with pending := true } }
        else { w with row := (f c.row.name w.row.name).app w.row }) } := by
    rw [updW_on, putW_on]
    simp only [List.map_map]
    rfl
  have keyg (w : Worker) : (if q c.row.name w.row.name then
          ({ row := (f c.row.name w.row.name).app w.row, vol := { w.vol with pending := true } } : Worker)
        else { w with row := (f c.row.name w.row.name).app w.row }) = w ∨
      ∃ t : JobStatus, 5 ≤ t.n ∧ (if q c.row.name w.row.name then
          ({ row := (f c.row.name w.row.name).app w.row, vol := { w.vol with pending := true } } : Worker)
        else { w with row := (f c.row.name w.row.name).app w.row }) =
        { row := { w.row with target := t }, vol := { w.vol with pending := true } } := by
    rcases key w with ⟨e, eq⟩ | ⟨t, ht, eq, e⟩
    · left; simp [eq]; exact e
    · right; refine ⟨t, ht, ?_⟩
      simp [eq]
      exact congrArg Worker.row e
  have h2 : Inv bulk ((Act.putW q).onCluster ((Act.updW f).onCluster c)) := by
    rw [e2]
    constructor
    · refine hp.mapWorkers ?_ ?_ ?_
      · intro w hw; split <;> rfl
      · intro w hw
        rcases keyg w with e | ⟨t, ht, e⟩
        · rw [e]; exact id
        · rw [e]; intro hx; rw [wactive_iff] at hx; exact absurd hx (Nat.not_lt.2 ht)
      · intro w hw
        rcases keyg w with e | ⟨t, ht, e⟩
        · rw [e]; exact hp.ws w hw
        · rw [e]; exact ((hp.ws w hw).retarget ht).pend
    · refine hv.mapWorkers ?_ ?_ ?_
      · intro _ w hw
        rcases keyg w with e | ⟨t, ht, e⟩
        · rw [e]; exact id
        · rw [e]; exact id
      · intro _ _ _ w hw
        rcases keyg w with e | ⟨t, ht, e⟩
        · rw [e]; exact id
        · rw [e]; exact id
      · intro w hw
        rcases keyg w with e | ⟨t, ht, e⟩
        · rw [e]; exact hv.ws w hw
        · rw [e]; exact (hv.ws w hw).retarget ht
  exact Good.two hp h1 h2

/-- The cluster is put into the queue. -/
theorem put_good {bulk : Bool} {c : Cluster} (h : Inv bulk c) (f : Nat → Bool) :
    Good bulk c [.putC f] := by
  obtain ⟨hp, hv⟩ := h
  refine Good.one hp ?_
  simp only [Act.onCluster]
  split
  · refine ⟨⟨hp.tgt, hp.clo, hp.cnt, hp.stt, hp.sch, hp.nodup, hp.lfin, hp.sep, hp.lcre, hp.lnm, hp.ws⟩, ?_⟩
    exact ⟨hv.flS, hv.flT, fun _ _ => rfl, fun _ _ => Or.inl rfl, fun _ _ _ => rfl, hv.ready, hv.shut,
      hv.rt1, hv.rt2, hv.rt3, hv.rt4, fun _ _ h => by simp at h, fun _ _ h => by simp at h, hv.ws⟩
  · exact ⟨hp, hv⟩

theorem WP.ctarget {bulk : Bool} {cs ct ct' : JobStatus} {log : List Ext} {w : Worker}
    (h : WP bulk cs ct log w) (ht : 5 ≤ ct'.n) : WP bulk cs ct' log w :=
  ⟨h.tg, h.fin, h.clo, fun e => ⟨(h.tclo e).1, ht⟩, h.cfin, h.ccl, h.lfin, h.lcre, h.lop⟩

/-- The cluster is asked to stop and put into the queue, or is not touched. -/
theorem stop_good {bulk : Bool} {c : Cluster} (h : Inv bulk c) (f : Nat → CUpd) (q : Nat → Bool)
    (hf : (f c.row.name = {} ∧ q c.row.name = false) ∨
      (∃ t : JobStatus, 5 ≤ t.n ∧ f c.row.name = { target := some t } ∧ q c.row.name = true)) :
    Good bulk c [.updC f, .putC q] := by
  rcases hf with ⟨e, eq⟩ | ⟨t, ht, e, eq⟩
  · refine Good.of_id h ?_
    intro a ha
    simp at ha
    rcases ha with rfl | rfl
    · simp [Act.onCluster, e]
    · simp [Act.onCluster, eq]
  · obtain ⟨hp, hv⟩ := h
    have e1 : (Act.updC f).onCluster c = { c with row := { c.row with target := t } } := by
      simp [Act.onCluster, e, CUpd.app]
    have h1 : CP bulk ((Act.updC f).onCluster c) := by
      rw [e1]
      exact ⟨Or.inr ht, fun _ => ht, hp.cnt, hp.stt, hp.sch, hp.nodup, hp.lfin, hp.sep, hp.lcre, hp.lnm,
        fun w hw => (hp.ws w hw).ctarget ht⟩
    have e2 : (Act.putC q).onCluster ((Act.updC f).onCluster c) =
        { c with row := { c.row with target := t }, vol := { c.vol with pending := true } } := by
      rw [e1]; simp [Act.onCluster, eq]
    refine Good.two hp h1 ?_
    rw [e2]
    rw [e1] at h1
    refine ⟨⟨h1.tgt, h1.clo, h1.cnt, h1.stt, h1.sch, h1.nodup, h1.lfin, h1.sep, h1.lcre, h1.lnm, h1.ws⟩, ?_⟩
    exact ⟨hv.flS, hv.flT, fun _ _ => rfl, fun _ _ => Or.inl rfl, fun _ _ _ => rfl, hv.ready, hv.shut,
      hv.rt1, hv.rt2, hv.rt3, hv.rt4, fun _ _ h => by simp at h, fun _ _ h => by simp at h, hv.ws⟩

/-- In-memory attributes change that no property depends on. -/
theorem vol_good {bulk : Bool} {c : Cluster} (h : Inv bulk c) (n : Nat) (f : CVol → CVol)
    (hf : ∀ v, ∃ hb fc, f v = { v with lastHb := hb, failCount := fc }) : Good bulk c [.volC n f] := by
  obtain ⟨hp, hv⟩ := h
  refine Good.one hp ?_
  by_cases hn : c.row.name = n
  · obtain ⟨hb, fc, e⟩ := hf c.vol
    rw [volC_on _ _ _ hn, e]
    exact ⟨⟨hp.tgt, hp.clo, hp.cnt, hp.stt, hp.sch, hp.nodup, hp.lfin, hp.sep, hp.lcre, hp.lnm, hp.ws⟩,
     ⟨hv.flS, hv.flT, hv.nw1, hv.nw2, hv.nwS, hv.ready, hv.shut,
      hv.rt1, hv.rt2, hv.rt3, hv.rt4, hv.rt5, hv.sup, hv.ws⟩⟩
  · rw [volC_off _ _ _ hn]; exact ⟨hp, hv⟩

end Verif.Backend
