import Verif.Backend.Clusters
/-
The reconciliation of a cluster that is to run, and the ends of the calls for clusters.
-/
set_option linter.unusedSimpArgs false
set_option linter.unusedVariables false
namespace Verif.Backend

/-- `_cluster_to_running` for a cluster that has an address. -/
theorem toRunning_good {bulk : Bool} {c : Cluster} (h : Inv bulk c) (h2 : c.row.status.n = 2)
    (hs : c.row.sched ≠ "") (ht : c.row.target.n = 3) (hpend : c.vol.pending = true) :
    Good bulk c (toRunningActs c.row.name) ∧
    onAll c (toRunningActs c.row.name) =
      { c with row := { c.row with status := .running }, vol := { c.vol with ready := true } } := by
  obtain ⟨hp, hv⟩ := h
  have c1 : CP bulk { c with row := { c.row with status := .running } } := by
    refine ⟨hp.tgt, fun e => by simp at e, hp.cnt, ?_, fun _ => hs, hp.nodup, fun e => by simp at e,
      hp.sep, fun _ e => by simp at e, hp.lnm, ?_⟩
    · have := hp.stt
      simp only [h2] at this
      simpa using this
    · intro w hw
      have hq := hp.ws w hw
      exact ⟨hq.tg, hq.fin, hq.clo, hq.tclo, fun e => by simp at e, fun e => by simp at e, hq.lfin, hq.lcre, hq.lop⟩
  have e1 : (updC1 c.row.name { status := some .running }).onCluster c =
      { c with row := { c.row with status := .running } } := by
    rw [updC1_on _ _ _ rfl]; rfl
  have e2 : (Act.volC c.row.name (fun v => { v with ready := true })).onCluster
      ((updC1 c.row.name { status := some .running }).onCluster c) =
      { c with row := { c.row with status := .running }, vol := { c.vol with ready := true } } := by
    rw [e1, volC_on _ _ _ (by rfl)]
  refine ⟨Good.two hp (by rw [e1]; exact c1) ?_, e2⟩
  rw [e2]
  refine ⟨⟨c1.tgt, c1.clo, c1.cnt, c1.stt, c1.sch, c1.nodup, c1.lfin, c1.sep, c1.lcre, c1.lnm, c1.ws⟩, ?_⟩
  have sh : c.vol.shutdown = false := by rw [hv.shut, h2]; rfl
  refine ⟨fun e => ?_, fun e => ?_, fun _ _ => hpend, fun e => by simp at e, fun e => by simp at e,
    by simp, by simp [sh], fun a e => ?_, fun a e => ?_, fun _ => by simp, fun e => ?_,
    fun _ _ e => ?_, fun _ _ e => ?_, hv.ws⟩
  · have := hv.flS e; omega
  · have := (hv.flT e).1; omega
  · have := (hv.rt1 a e).1; omega
  · have := (hv.rt2 a e).1; omega
  · have := hv.rt3 e; omega
  · simp only [hpend] at e; simp at e
  · simp only [hpend] at e; simp at e

/-- `_check_cluster_proxied`. -/
theorem proxied_good {bulk : Bool} {c : Cluster} (h : Inv bulk c) (h3 : c.row.status.n = 3)
    (hpend : c.vol.pending = true) :
    Good bulk c [.volC c.row.name (proxied c.row.sched c.row.dash)] := by
  obtain ⟨hp, hv⟩ := h
  refine Good.one hp ?_
  rw [volC_on _ _ _ rfl]
  simp only [proxied]
  split
  · exact ⟨hp, hv⟩
  · rename_i ha
    refine ⟨⟨hp.tgt, hp.clo, hp.cnt, hp.stt, hp.sch, hp.nodup, hp.lfin, hp.sep, hp.lcre, hp.lnm, hp.ws⟩, ?_⟩
    refine ⟨hv.flS, hv.flT, hv.nw1, hv.nw2, hv.nwS, hv.ready, hv.shut, fun a e => ?_, fun a e => ?_,
      fun _ => by simp [h3], fun _ _ => ?_, fun _ _ _ => rfl, fun _ _ e => ?_, hv.ws⟩
    · simp at e; exact ⟨Or.inl h3, e.symm⟩
    · simp only at e
      split at e
      · exact hv.rt2 a e
      · rename_i hd
        simp at e; subst e
        exact ⟨Or.inl h3, rfl, hd⟩
    · refine ⟨rfl, fun hd => by simp [hd]⟩
    · simp only [hpend] at e; simp at e

theorem proxied_frame (sched dash : String) (v : CVol) :
    (proxied sched dash v).pending = v.pending ∧ (proxied sched dash v).fl = v.fl ∧
    (proxied sched dash v).log = v.log ∧ (proxied sched dash v).failCount = v.failCount ∧
    (proxied sched dash v).lastHb = v.lastHb ∧
    (proxied sched dash v).added = true := by
  simp only [proxied]; split <;> simp_all

/-- A new worker that was put into the queue. -/
def newWorker (x : Nat) (now : Int) : Worker :=
  { row := newWRow x now, vol := { pending := true, fl := .idle } }

theorem create_two (c : Cluster) (x : Nat) (now : Int) (hx : x ∉ names c.workers) :
    (putWs c.row.name [x]).onCluster ((Act.newW c.row.name (newWRow x now)).onCluster c) =
      { c with workers := c.workers ++ [newWorker x now] } := by
  rw [newW_on _ _ _ rfl, putWs_on _ _ _ (by rfl)]
  simp only [List.map_append, List.map_cons, List.map_nil]
  congr 1
  congr 1
  · apply map_id_of
    intro w hw
    have : w.row.name ≠ x := fun e => hx (List.mem_map.2 ⟨w, hw, e⟩)
    simp [this]
  · simp [Worker.fresh, newWRow, newWorker]

theorem create_good {bulk : Bool} (now : Int) (k : Nat) : ∀ (c : Cluster) (next : Nat), Inv bulk c →
    c.vol.pending = true → c.row.status.n = 3 → c.row.target.n = 3 →
    (∀ y ∈ names c.workers, y < next) →
    (∀ m, c.row.maxWorkers = some m → c.activeWorkers.length + k ≤ m) →
    Good bulk c (createWorkers c.row.name next now k) ∧
    (onAll c (createWorkers c.row.name next now k)).row = c.row ∧
    (onAll c (createWorkers c.row.name next now k)).vol = c.vol ∧
    (onAll c (createWorkers c.row.name next now k)).supply = c.supply + k := by
  induction k with
  | zero =>
    intro c next h _ _ _ _ _
    exact ⟨Good.nil h, rfl, rfl, rfl⟩
  | succ k ih =>
    intro c next h hpend h3 ht hb hm
    obtain ⟨hp, hv⟩ := h
    have hx : next ∉ names c.workers := fun e => by have := hb _ e; omega
    have hoff : wst bulk next c.vol.log = .off := by
      apply Classical.byContradiction
      intro e
      exact hx (hp.lnm next e)
    have act (v : WVol) : ({ row := newWRow next now, vol := v } : Worker).row.active = true := by
      rw [wactive_iff]; simp [newWRow]
    have cp (v : WVol) (hfl : v.fl = .idle) : CP bulk { c with workers := c.workers ++
        [{ row := newWRow next now, vol := v }] } := by
      refine ⟨hp.tgt, hp.clo, ?_, hp.stt, hp.sch, ?_, hp.lfin, hp.sep, hp.lcre, ?_, ?_⟩
      · intro m hmm
        refine ⟨(hp.cnt m hmm).1, ?_⟩
        have := hm m hmm
        simp only [Cluster.activeWorkers, List.filter_append, List.length_append] at this ⊢
        have h1 : ([({ row := newWRow next now, vol := v } : Worker)].filter (fun w => w.row.active)).length ≤ 1 :=
          Nat.le_trans (List.length_filter_le _ _) (by simp)
        omega
      · simp only [names, List.map_append, List.map_cons, List.map_nil]
        rw [List.nodup_append]
        refine ⟨hp.nodup, by simp, ?_⟩
        intro a ha b hb' e
        simp [newWRow] at hb'
        subst hb'; subst e
        exact hx ha
      · intro x hxx
        have := hp.lnm x hxx
        simp only [names, List.map_append, List.mem_append]
        exact Or.inl this
      · intro w hw
        rcases List.mem_append.1 hw with hw | hw
        · exact hp.ws w hw
        · simp at hw
          subst hw
          refine ⟨by simp [newWRow], fun e => by simp [newWRow] at e, fun e => by simp [newWRow] at e,
            fun e => by simp [newWRow] at e, fun e => ?_, fun e => ?_, fun e => by simp [newWRow] at e,
            fun _ => by simp [newWRow, hoff], fun e => by simp [newWRow, hoff] at e⟩
          · simp only at e; omega
          · simp only at e; omega
    have cv : CV bulk { c with workers := c.workers ++ [newWorker next now] } := by
      refine ⟨hv.flS, hv.flT, hv.nw1, fun e => ?_, hv.nwS, hv.ready, hv.shut, hv.rt1, hv.rt2, hv.rt3, hv.rt4,
        hv.rt5, fun _ _ e => ?_, ?_⟩
      · simp only at e; omega
      · simp only [hpend] at e; simp at e
      · intro w hw
        rcases List.mem_append.1 hw with hw | hw
        · exact hv.ws w hw
        · simp at hw
          subst hw
          refine ⟨fun e => by simp [newWorker] at e, fun e => by simp [newWorker] at e,
            fun _ _ => Or.inl rfl, fun _ _ => rfl, fun _ _ _ => rfl, fun e => ?_⟩
          have := (hv.flT e).1; omega
    have e1 : (Act.newW c.row.name (newWRow next now)).onCluster c =
        { c with workers := c.workers ++ [{ row := newWRow next now, vol := { pending := false, fl := .idle } }] } :=
      newW_on _ _ _ rfl
    have e2 := create_two c next now hx
    have g : Good bulk c [.newW c.row.name (newWRow next now), putWs c.row.name [next]] := by
      refine Good.two hp ?_ ?_
      · rw [e1]; exact cp _ rfl
      · rw [e2]; exact ⟨cp { pending := true, fl := .idle } rfl, cv⟩
    have i2 := g.2
    rw [onAll_cons, onAll_cons, onAll_nil, e2] at i2
    have := ih { c with workers := c.workers ++ [newWorker next now] } (next + 1) i2 hpend h3 ht
      (by
        intro y hy
        simp only [names, List.map_append, List.mem_append] at hy
        rcases hy with hy | hy
        · have := hb y hy; omega
        · simp [newWorker, newWRow] at hy; omega)
      (by
        intro m hmm
        have := hm m hmm
        have h1 : ([newWorker next now].filter (fun w => w.row.active)).length ≤ 1 :=
          Nat.le_trans (List.length_filter_le _ _) (by simp)
        simp only [Cluster.activeWorkers, List.filter_append, List.length_append] at this ⊢
        omega)
    obtain ⟨g', r1, r2, r3⟩ := this
    have hcons : createWorkers c.row.name next now (k + 1) =
        [.newW c.row.name (newWRow next now), putWs c.row.name [next]] ++
          createWorkers c.row.name (next + 1) now k := rfl
    rw [hcons]
    rw [onAll_append, onAll_cons, onAll_cons, onAll_nil, e2]
    refine ⟨Good.append g (by rw [onAll_cons, onAll_cons, onAll_nil, e2]; exact g'), r1, r2, ?_⟩
    rw [r3]
    simp only [Cluster.supply, List.filter_append, List.length_append]
    have : ([newWorker next now].filter Worker.supplies).length = 1 := by
      simp [newWorker, newWRow, Worker.supplies]
    omega

/-- Active workers still supply. -/
theorem active_le_supply {bulk : Bool} {c : Cluster} (h : CP bulk c) :
    c.activeWorkers.length ≤ c.supply := by
  have key : ∀ ws : List Worker, (∀ w ∈ ws, 5 ≤ w.row.status.n → 5 ≤ w.row.target.n) →
      (ws.filter (fun w => w.row.active)).length ≤ (ws.filter Worker.supplies).length := by
    intro ws
    induction ws with
    | nil => simp
    | cons w ws ih =>
      intro hall
      have ih := ih (fun x hx => hall x (by simp [hx]))
      have hw := hall w (by simp)
      simp only [List.filter_cons]
      by_cases ha : w.row.active = true
      · have : w.supplies = true := by
          rw [wactive_iff] at ha
          have : w.row.status.n < 5 := by omega
          simp [Worker.supplies, this]
        simp [ha, this]; omega
      · by_cases hs : w.supplies = true <;> simp [ha, hs] <;> omega
  exact key c.workers (fun w hw => (h.ws w hw).fin)

theorem blind_create (n : Nat) (now : Int) (k : Nat) : ∀ next, ∀ a ∈ createWorkers n next now k, a.blind := by
  induction k with
  | zero => intro _ a ha; simp [createWorkers] at ha
  | succ k ih =>
    intro next a ha
    simp only [createWorkers, List.mem_cons] at ha
    rcases ha with rfl | rfl | ha
    · exact blind_newW _ _
    · exact blind_putW _
    · exact ih _ a ha

theorem blind_toRunning (n : Nat) : ∀ a ∈ toRunningActs n, a.blind := by
  intro a ha
  simp [toRunningActs] at ha
  rcases ha with rfl | rfl
  · exact blind_updC _
  · exact blind_volC _ _ (fun _ _ => rfl)

theorem blind_proxied (n : Nat) (a b : String) : (Act.volC n (proxied a b)).blind :=
  blind_volC _ _ (fun v x => by simp only [proxied]; split <;> rfl)

theorem blind_toClosing (cfg : Cfg) (c : Cluster) : ∀ a ∈ toClosingActs cfg c, a.blind := by
  intro a ha
  simp only [toClosingActs, List.mem_append, List.mem_cons, List.not_mem_nil, or_false] at ha
  rcases ha with ((rfl | rfl | rfl) | ha) | rfl
  · exact blind_updW _
  · exact blind_putW _
  · exact blind_updC _
  · split at ha
    · simp at ha; subst ha; exact blind_putC _
    · simp at ha
  · exact blind_volC _ _ (fun _ _ => rfl)

/-- What `_check_cluster_scale` does to a running cluster that was just taken from the queue. -/
theorem scale_good {cfg : Cfg} {c : Cluster} (h : Inv cfg.bulk c) (next : Nat) (now : Int)
    (hpend : c.vol.pending = true) (h3 : c.row.status.n = 3) (ht : c.row.target.n = 3)
    (hadd : c.vol.added = true) (hb : ∀ y ∈ names c.workers, y < next) :
    Good cfg.bulk c (checkScaleActs cfg next c now) ∧
    (∀ d : Cluster, d.row.name = c.row.name →
      (onAll d (checkScaleActs cfg next c now)).vol.pending = false →
      Settled cfg.bulk (onAll c (checkScaleActs cfg next c now))) ∧
    (∀ a ∈ checkScaleActs cfg next c now, a.blind) := by
  simp only [checkScaleActs]
  split
  · refine ⟨stop_good h _ _ (Or.inr ⟨.failed, by simp, by simp, by simp⟩), ?_, ?_⟩
    · intro d hd hf
      exfalso
      simp only [onAll_cons, onAll_nil] at hf
      rw [putC1_on _ _ (by rw [onCluster_name]; exact hd)] at hf
      simp at hf
    · intro a ha
      simp at ha
      rcases ha with rfl | rfl
      · exact blind_updC _
      · exact blind_putC _
  · obtain ⟨g, r1, r2, r3⟩ := create_good (bulk := cfg.bulk) now (c.row.count - c.activeWorkers.length).toNat c next h
      hpend h3 ht hb (by
        intro m hm
        have := h.1.cnt m hm
        omega)
    refine ⟨g, ?_, blind_create _ _ _ _⟩
    intro d hd hf
    have hsup := active_le_supply h.1
    refine ⟨?_, ?_, ?_, ?_, ?_⟩
    · rw [r1]; omega
    · rw [r1]; omega
    · rw [r1]; omega
    · rw [r2]; exact fun _ _ => hadd
    · rw [r1, r3]; intro _ _; omega

/-- A reconciliation of a cluster keeps the invariant. -/
theorem reconcileCluster_good {cfg : Cfg} {c : Cluster} (h : Inv cfg.bulk c) (next : Nat) (now : Int)
    (hpend : c.vol.pending = true) (hi : c.vol.fl = .idle) (hb : ∀ y ∈ names c.workers, y < next) :
    Good cfg.bulk c (.volC c.row.name (fun v => { v with pending := false }) ::
      reconcileClusterActs cfg next c now) := by
  have hp := h.1
  have hv := h.2
  simp only [reconcileClusterActs]
  split
  · -- finished
    rename_i h5
    have h5 : 5 ≤ c.row.status.n := h5
    refine take_good (Good.nil h) (by simp) (fun _ => ?_)
    exact ⟨fun _ => by simp; omega, fun e => by simp at e; omega, fun e => by simp at e; omega,
      fun e => by simp at e; omega, fun e => by simp at e; omega⟩
  · rename_i h5
    have h5 : ¬ 5 ≤ c.row.status.n := h5
    split
    · rename_i ht
      have ht : 5 ≤ c.row.target.n := by rw [n_ge5]; exact ht
      split
      · rename_i h4
        rw [n_eq4] at h4
        split
        · rename_i hr
          split
          · refine take_good (beginStop_good h h4 hi hr) ?_ (fun _ => ?_)
            · intro a ha
              simp at ha; subst ha
              exact blind_volC _ _ (fun _ _ => rfl)
            · rw [onAll_cons, onAll_nil, volC_on _ _ _ rfl]
              exact ⟨fun _ => by simp; omega, fun _ _ => rfl, fun e => by simp at e; omega,
                fun e => by simp at e; omega, fun e => by simp at e; omega⟩
          · rename_i hgt
            simp at hgt; omega
        · rename_i hr
          refine take_good (Good.nil h) (by simp) (fun _ => ?_)
          exact ⟨fun _ => by simp; omega, fun _ e => absurd e hr, fun e => by simp at e; omega,
            fun e => by simp at e; omega, fun e => by simp at e; omega⟩
      · rename_i h4
        rw [n_eq4] at h4
        have := toClosing_good h (by omega) ht hi hpend
        exact take_good this.1 (blind_toClosing _ _) this.2
    · rename_i ht
      have ht5 : ¬ 5 ≤ c.row.target.n := by rw [n_ge5]; exact ht
      have ht : c.row.target.n = 3 := by
        have := hp.tgt; omega
      have h4 : c.row.status.n < 4 := by have := hp.clo; omega
      split
      · split
        · rename_i h1
          rw [n_eq1] at h1
          refine take_good (beginStart_good h h1 hi) ?_ (fun _ => ?_)
          · intro a ha
            simp at ha; subst ha
            exact blind_volC _ _ (fun _ _ => rfl)
          · rw [onAll_cons, onAll_nil, volC_on _ _ _ rfl]
            exact ⟨fun _ => by simp at *; omega, fun e => by simp at e; omega, fun _ _ e => by simp at e,
              fun e => by simp at e; omega, fun e => by simp at e; omega⟩
        · rename_i h1
          rw [n_eq1] at h1
          have hr := n_range c.row.status
          by_cases h2 : c.row.status.n = 2
          · have e2 : c.row.status = .submitted := n_eq2.2 h2
            have e3 : ¬ c.row.status = .running := by rw [n_eq3]; omega
            by_cases hs : c.row.sched = ""
            · simp only [e2, hs]
              refine take_good (Good.nil h) (by simp) (fun _ => ?_)
              exact ⟨fun _ => by simp at *; omega, fun e => by simp at e; omega, fun e => by simp at e; omega,
                fun e => by simp at e; omega, fun e => by simp at e; omega⟩
            · obtain ⟨g1, f1⟩ := toRunning_good h h2 hs ht hpend
              have i1 := g1.2
              rw [f1] at i1
              have g2 := proxied_good i1 (by rfl) hpend
              have f2 : onAll { c with row := { c.row with status := .running }, vol := { c.vol with ready := true } }
                  [.volC c.row.name (proxied c.row.sched c.row.dash)] =
                  { c with row := { c.row with status := .running },
                           vol := proxied c.row.sched c.row.dash { c.vol with ready := true } } := by
                rw [onAll_cons, onAll_nil, volC_on _ _ _ (by rfl)]
              have i2 := g2.2
              have f2' := f2
              dsimp only at i2
              rw [f2] at i2
              obtain ⟨p1, p2, p3, p4, p5, p6⟩ := proxied_frame c.row.sched c.row.dash { c.vol with ready := true }
              obtain ⟨g3, s3, b3⟩ := scale_good i2 next now (by rw [p1]; exact hpend) (by rfl) ht p6 hb
              have ecs : checkScaleActs cfg next { c with row := { c.row with status := .running }, vol := proxied c.row.sched c.row.dash { c.vol with ready := true } } now =
                  checkScaleActs cfg next c now := by
                simp only [checkScaleActs, p4]; rfl
              rw [ecs] at g3 s3 b3
              have g12 : Good cfg.bulk c (toRunningActs c.row.name ++
                  [.volC c.row.name (proxied c.row.sched c.row.dash)]) :=
                Good.append g1 (by rw [f1]; exact g2)
              have f12 : onAll c (toRunningActs c.row.name ++
                  [.volC c.row.name (proxied c.row.sched c.row.dash)]) =
                  { c with row := { c.row with status := .running },
                           vol := proxied c.row.sched c.row.dash { c.vol with ready := true } } := by
                rw [onAll_append, f1, f2]
              have g123 := Good.append g12 (by rw [f12]; exact g3)
              have el : (toRunningActs c.row.name ++
                  [.volC c.row.name (proxied c.row.sched c.row.dash)]) ++ checkScaleActs cfg next c now =
                  (if (decide (c.row.status = .submitted) && decide (c.row.sched ≠ "")) = true then toRunningActs c.row.name else []) ++
                  (if ((decide (c.row.status = .submitted) && decide (c.row.sched ≠ "")) || decide (c.row.status = .running)) = true then
                    [.volC c.row.name (proxied c.row.sched c.row.dash)] ++ checkScaleActs cfg next c now else []) := by
                simp [e2, hs]
              rw [← el]
              refine take_good g123 ?_ ?_
              · intro a ha
                simp only [List.mem_append] at ha
                rcases ha with (ha | ha) | ha
                · exact blind_toRunning _ a ha
                · simp at ha; subst ha; exact blind_proxied _ _ _
                · exact b3 a ha
              · intro hf
                rw [onAll_append] at hf ⊢
                rw [f12]
                exact s3 _ (by rw [onAll_name]; rfl) hf
          · have h3 : c.row.status.n = 3 := by omega
            have e3 : c.row.status = .running := n_eq3.2 h3
            have g2 := proxied_good h h3 hpend
            have f2 : onAll c [.volC c.row.name (proxied c.row.sched c.row.dash)] =
                { c with vol := proxied c.row.sched c.row.dash c.vol } := by
              rw [onAll_cons, onAll_nil, volC_on _ _ _ (by rfl)]
            have i2 := g2.2
            rw [f2] at i2
            obtain ⟨p1, p2, p3, p4, p5, p6⟩ := proxied_frame c.row.sched c.row.dash c.vol
            obtain ⟨g3, s3, b3⟩ := scale_good i2 next now (by rw [p1]; exact hpend) h3 ht p6 hb
            have ecs : checkScaleActs cfg next { c with vol := proxied c.row.sched c.row.dash c.vol } now =
                checkScaleActs cfg next c now := by
              simp only [checkScaleActs, p4]; rfl
            rw [ecs] at g3 s3 b3
            have g123 := Good.append g2 (by rw [f2]; exact g3)
            have el : [.volC c.row.name (proxied c.row.sched c.row.dash)] ++ checkScaleActs cfg next c now =
                (if (decide (c.row.status = .submitted) && decide (c.row.sched ≠ "")) = true then toRunningActs c.row.name else []) ++
                (if ((decide (c.row.status = .submitted) && decide (c.row.sched ≠ "")) || decide (c.row.status = .running)) = true then
                  [.volC c.row.name (proxied c.row.sched c.row.dash)] ++ checkScaleActs cfg next c now else []) := by
              simp [e3]
            rw [← el]
            refine take_good g123 ?_ ?_
            · intro a ha
              simp only [List.mem_append] at ha
              rcases ha with ha | ha
              · simp at ha; subst ha; exact blind_proxied _ _ _
              · exact b3 a ha
            · intro hf
              rw [onAll_append] at hf ⊢
              rw [f2]
              exact s3 _ (by rw [onAll_name]; rfl) hf
      · rename_i hr
        exact absurd (n_eq3.2 ht) hr

/-! ### The ends of the calls -/

theorem yieldC_good {bulk : Bool} {c : Cluster} (h : Inv bulk c) (n st : Nat) :
    Good bulk c [updC1 n { state := some st }] := by
  by_cases hn : c.row.name = n
  · refine Good.one h.1 ?_
    obtain ⟨hp, hv⟩ := h
    rw [updC1_on _ _ _ hn]
    exact ⟨⟨hp.tgt, hp.clo, hp.cnt, hp.stt, hp.sch, hp.nodup, hp.lfin, hp.sep, hp.lcre, hp.lnm, hp.ws⟩,
      ⟨hv.flS, hv.flT, hv.nw1, hv.nw2, hv.nwS, hv.ready, hv.shut,
      hv.rt1, hv.rt2, hv.rt3, hv.rt4, hv.rt5, hv.sup, hv.ws⟩⟩
  · exact Good.of_id h (by intro a ha; simp at ha; subst ha; exact updC1_off _ _ _ hn)

theorem endStartC_good {bulk : Bool} {c : Cluster} (h : Inv bulk c) (ok : Bool)
    (hs : c.vol.fl = .starting) : Good bulk c (endStartClusterActs c.row.name ok) := by
  obtain ⟨hp, hv⟩ := h
  have h1 := hv.flS hs
  have hst : c.row.stopTime.isSome = true ↔ 5 ≤ (2 : Nat) := by
    have := hp.stt; rw [h1] at this; simpa using this
  have rd : c.vol.ready = false := by rw [hv.ready, h1]; rfl
  have sh : c.vol.shutdown = false := by rw [hv.shut, h1]; rfl
  have cp (t : JobStatus) (ht : t = c.row.target ∨ 5 ≤ t.n) (v : CVol) (hl : v.log = c.vol.log ∨
      v.log = .startedCluster :: c.vol.log) :
      CP bulk { c with row := { c.row with status := .submitted, target := t }, vol := v } := by
    have ew (x) : wst bulk x v.log = wst bulk x c.vol.log := by rcases hl with e | e <;> rw [e]; rfl
    refine ⟨?_, fun e => by simp at e, hp.cnt, hst, fun e => by simp at e, hp.nodup,
      fun e => by simp at e, ?_, fun _ e => by simp at e, ?_, ?_⟩
    · rcases ht with rfl | ht
      · exact hp.tgt
      · exact Or.inr ht
    · rcases hl with e | e <;> simp only [e] <;> exact hp.sep
    · intro x; simp only [ew]; exact hp.lnm x
    · intro w hw
      have hq := hp.ws w hw
      refine ⟨hq.tg, hq.fin, hq.clo, ?_, fun e => by simp at e, fun e => by simp at e, ?_, ?_, ?_⟩
      · intro e
        have := hq.tclo e
        rcases ht with rfl | ht
        · exact this
        · exact ⟨this.1, ht⟩
      · simp only [ew]; exact hq.lfin
      · simp only [ew]; exact hq.lcre
      · simp only [ew]; exact hq.lop
  have cv (t : JobStatus) (b : Bool) (hb : b = true ∨ t = c.row.target ∧ b = c.vol.pending) :
      CV bulk { c with row := { c.row with status := .submitted, target := t },
                       vol := { { c.vol with pending := b }.addLog .startedCluster with fl := .idle } } := by
    refine ⟨fun e => by simp at e, fun e => by simp at e, fun a _ => ?_, fun e => by simp at e,
      fun e => by simp at e, by simp [CVol.addLog, rd], by simp [CVol.addLog, sh], fun a e => ?_, fun a e => ?_,
      fun e => ?_, fun _ e => by simp at e, fun e => by simp at e, fun e => by simp at e, ?_⟩
    · rcases hb with hb | ⟨rfl, hb⟩
      · simpa [CVol.addLog] using hb
      · simp only [CVol.addLog, hb]; exact hv.nw1 a (by omega)
    · have := (hv.rt1 a e).1; omega
    · have := (hv.rt2 a e).1; omega
    · have := hv.rt3 e; omega
    · intro w hw
      have hq := hv.ws w hw
      refine ⟨hq.flS, hq.flT, hq.nw3, hq.nw4, hq.nw5, fun e => by simp at e⟩
  cases ok with
  | true =>
    simp only [endStartClusterActs, if_true]
    have e1 : (updC1 c.row.name { status := some .submitted }).onCluster c =
        { c with row := { c.row with status := .submitted, target := c.row.target }, vol := c.vol } := by
      rw [updC1_on _ _ _ rfl]; rfl
    refine Good.two hp (by rw [e1]; exact cp _ (Or.inl rfl) _ (Or.inl rfl)) ?_
    rw [e1, volC_on _ _ _ (by rfl)]
    exact ⟨cp _ (Or.inl rfl) _ (Or.inr rfl), cv _ _ (Or.inr ⟨rfl, rfl⟩)⟩
  | false =>
    have e1 : (updC1 c.row.name { status := some .submitted, target := some .failed }).onCluster c =
        { c with row := { c.row with status := .submitted, target := .failed }, vol := c.vol } := by
      rw [updC1_on _ _ _ rfl]; rfl
    have e2 : (putC1 c.row.name).onCluster
        { c with row := { c.row with status := .submitted, target := .failed }, vol := c.vol } =
        { c with row := { c.row with status := .submitted, target := .failed }, vol := { c.vol with pending := true } } := by
      rw [putC1_on _ _ (by rfl)]
    have e3 : (Act.volC c.row.name (fun v => { v.addLog .startedCluster with fl := .idle })).onCluster
        { c with row := { c.row with status := .submitted, target := .failed }, vol := { c.vol with pending := true } } =
        { c with row := { c.row with status := .submitted, target := .failed },
                 vol := { { c.vol with pending := true }.addLog .startedCluster with fl := .idle } } := by
      rw [volC_on _ _ _ (by rfl)]
    have f6 : 5 ≤ JobStatus.failed.n := by simp
    have c3 := cp .failed (Or.inr f6) { { c.vol with pending := true }.addLog .startedCluster with fl := .idle } (Or.inr rfl)
    refine ⟨⟨hp, ?_, ?_, ?_⟩, ?_⟩
    · rw [e1]; exact cp _ (Or.inr f6) _ (Or.inl rfl)
    · rw [e1, e2]; exact cp _ (Or.inr f6) _ (Or.inl rfl)
    · show CP bulk _
      rw [e1, e2, e3]; exact c3
    · simp only [endStartClusterActs, Bool.false_eq_true, if_false, List.cons_append, List.nil_append,
        onAll_cons, onAll_nil]
      rw [e1, e2, e3]
      exact ⟨c3, cv _ _ (Or.inl rfl)⟩

theorem endStopC_good {bulk : Bool} {c : Cluster} (h : Inv bulk c) (now : Int)
    (hs : c.vol.fl = .stopping) : Good bulk c (endStopClusterActs c now) := by
  obtain ⟨hp, hv⟩ := h
  obtain ⟨h4, hss⟩ := hv.flT hs
  have ht := hp.clo (by omega)
  obtain ⟨ws, ews⟩ : ∃ ws, names (c.workers.filter
    (fun w => decide (w.row.status.n < JobStatus.stopped.n))) = ws := ⟨_, rfl⟩
  have hmem (w) (hw : w ∈ c.workers) : w.row.name ∈ ws ↔ w.row.status.n < 5 := by
    rw [← ews, mem_names_filter hp.nodup hw]; exact decide_eq_true_iff
  have key (w) (hw : w ∈ c.workers) :
      (if w.row.name ∈ ws then
        { w with row := WUpd.app { status := some .stopped, target := some .stopped } w.row } else w) = w ∧
        5 ≤ w.row.status.n ∨
      w.row.status.n < 5 ∧
      (if w.row.name ∈ ws then
        { w with row := WUpd.app { status := some .stopped, target := some .stopped } w.row } else w) =
        { w with row := { w.row with status := .stopped, target := .stopped } } := by
    by_cases hm : w.row.name ∈ ws
    · right; exact ⟨(hmem w hw).1 hm, by simp [hm, WUpd.app]⟩
    · left; exact ⟨by simp [hm], by have := mt (hmem w hw).2 hm; omega⟩
  have wp (w) (hw : w ∈ c.workers) (cs : JobStatus) : WP bulk cs c.row.target c.vol.log
      (if w.row.name ∈ ws then
        { w with row := WUpd.app { status := some .stopped, target := some .stopped } w.row } else w) := by
    have hq := hp.ws w hw
    rcases key w hw with ⟨e, h5⟩ | ⟨hlt, e⟩ <;> rw [e]
    · refine ⟨hq.tg, hq.fin, hq.clo, hq.tclo, fun _ => h5, fun _ => ?_, hq.lfin, hq.lcre, hq.lop⟩
      have := hq.fin h5
      rw [closeTarget_n]; split <;> omega
    · refine ⟨by simp, fun _ => by simp, fun e => by simp at e, fun e => by simp at e, fun _ => by simp,
        fun _ => by rw [closeTarget_n]; simp; split <;> omega, fun _ => ?_, fun e => by simp at e, hq.lop⟩
      rcases (hv.ws w hw).cT hs with h | h
      · omega
      · exact Or.inl h.2.2
  have cp1 : CP bulk { c with vol := removeRoutes c.vol } :=
    ⟨hp.tgt, hp.clo, hp.cnt, hp.stt, hp.sch, hp.nodup, hp.lfin, hp.sep, hp.lcre, hp.lnm, hp.ws⟩
  have cp2 : CP bulk { c with vol := removeRoutes c.vol, workers := c.workers.map (fun w => if w.row.name ∈ ws then
        { w with row := WUpd.app { status := some .stopped, target := some .stopped } w.row } else w) } := by
    refine cp1.mapWorkers ?_ ?_ (fun w hw => wp w hw _)
    · intro w hw; split <;> rfl
    · intro w hw
      rcases key w hw with ⟨e, _⟩ | ⟨hlt, e⟩ <;> rw [e]
      · exact id
      · intro e; rw [wactive_iff] at e; simp at e
  have cp3 (v : CVol) (hl : v.log = c.vol.log) : CP bulk
      { row := { c.row with status := c.row.target, stopTime := some now }, vol := v,
        workers := c.workers.map (fun w => if w.row.name ∈ ws then
        { w with row := WUpd.app { status := some .stopped, target := some .stopped } w.row } else w) } := by
    refine ⟨hp.tgt, fun _ => ht, cp2.cnt, ?_, fun e => ?_, cp2.nodup, fun _ => ?_, ?_, fun _ e => ?_, ?_, ?_⟩
    · simp [ht]
    · simp only at e; omega
    · simp only [hl]; exact hss
    · simp only [hl]; exact hp.sep
    · simp only at e; omega
    · simp only [hl]; exact cp2.lnm
    · intro w' hw'
      simp only [hl]
      obtain ⟨w, hw, rfl⟩ := List.mem_map.1 hw'
      exact wp w hw _
  have e1 : (Act.volC c.row.name removeRoutes).onCluster c = { c with vol := removeRoutes c.vol } :=
    volC_on _ _ _ rfl
  have e2 : (updWs c.row.name ws { status := some .stopped, target := some .stopped }).onCluster
      { c with vol := removeRoutes c.vol } =
      { c with vol := removeRoutes c.vol, workers := c.workers.map (fun w => if w.row.name ∈ ws then
        { w with row := WUpd.app { status := some .stopped, target := some .stopped } w.row } else w) } :=
    updWs_on _ _ _ _ rfl
  have e3 : (updC1 c.row.name { status := some c.row.target, stopTime := some now }).onCluster
      { c with vol := removeRoutes c.vol, workers := c.workers.map (fun w => if w.row.name ∈ ws then
        { w with row := WUpd.app { status := some .stopped, target := some .stopped } w.row } else w) } =
      { row := { c.row with status := c.row.target, stopTime := some now }, vol := removeRoutes c.vol,
        workers := c.workers.map (fun w => if w.row.name ∈ ws then
        { w with row := WUpd.app { status := some .stopped, target := some .stopped } w.row } else w) } :=
    updC1_on _ _ _ rfl
  have e4 : (Act.volC c.row.name (fun v => { v with ready := true, shutdown := true })).onCluster
      { row := { c.row with status := c.row.target, stopTime := some now }, vol := removeRoutes c.vol,
        workers := c.workers.map (fun w => if w.row.name ∈ ws then
        { w with row := WUpd.app { status := some .stopped, target := some .stopped } w.row } else w) } =
      { row := { c.row with status := c.row.target, stopTime := some now },
        vol := { removeRoutes c.vol with ready := true, shutdown := true },
        workers := c.workers.map (fun w => if w.row.name ∈ ws then
        { w with row := WUpd.app { status := some .stopped, target := some .stopped } w.row } else w) } :=
    volC_on _ _ _ rfl
  have e5 : (Act.volC c.row.name (fun v => { v with fl := .idle })).onCluster
      { row := { c.row with status := c.row.target, stopTime := some now },
        vol := { removeRoutes c.vol with ready := true, shutdown := true },
        workers := c.workers.map (fun w => if w.row.name ∈ ws then
        { w with row := WUpd.app { status := some .stopped, target := some .stopped } w.row } else w) } =
      { row := { c.row with status := c.row.target, stopTime := some now },
        vol := { removeRoutes c.vol with ready := true, shutdown := true, fl := .idle },
        workers := c.workers.map (fun w => if w.row.name ∈ ws then
        { w with row := WUpd.app { status := some .stopped, target := some .stopped } w.row } else w) } :=
    volC_on _ _ _ rfl
  have el : endStopClusterActs c now = [.volC c.row.name removeRoutes,
      updWs c.row.name ws { status := some .stopped, target := some .stopped },
      updC1 c.row.name { status := some c.row.target, stopTime := some now },
      .volC c.row.name (fun v => { v with ready := true, shutdown := true }),
      .volC c.row.name (fun v => { v with fl := .idle })] := by
    simp only [endStopClusterActs, stoppedActs, ews]; rfl
  rw [el]
  refine ⟨⟨hp, ?_, ?_, ?_, ?_, ?_⟩, ?_⟩
  · rw [e1]; exact cp1
  · rw [e1, e2]; exact cp2
  · rw [e1, e2, e3]; exact cp3 _ rfl
  · rw [e1, e2, e3, e4]; exact cp3 _ rfl
  · show CP bulk _
    rw [e1, e2, e3, e4, e5]; exact cp3 _ rfl
  · simp only [onAll_cons, onAll_nil]
    rw [e1, e2, e3, e4, e5]
    refine ⟨cp3 _ rfl, ?_⟩
    have h3 : 3 ≤ c.row.target.n := by omega
    refine ⟨fun e => by simp at e, fun e => by simp at e, fun _ e => ?_, fun e => ?_, fun e => ?_,
      by simp [h3], by simp [ht], fun a e => by simp [removeRoutes] at e, fun a e => by simp [removeRoutes] at e,
      fun _ => h3, fun _ e => ?_, fun e => ?_, fun e => ?_, ?_⟩
    · simp only at e; omega
    · simp only at e; omega
    · simp only at e; omega
    · simp only at e; omega
    · simp only at e; omega
    · simp only at e; omega
    · intro w' hw'
      obtain ⟨w, hw, rfl⟩ := List.mem_map.1 hw'
      have hq := hv.ws w hw
      rcases key w hw with ⟨e, h5⟩ | ⟨hlt, e⟩ <;> rw [e]
      · exact ⟨hq.flS, hq.flT, hq.nw3, hq.nw4, hq.nw5, fun e => by simp at e⟩
      · refine ⟨fun e => ?_, fun e => ⟨by simp, (hq.flT e).2⟩, fun _ e => by simp at e, fun e => by simp at e,
          fun e => by simp at e, fun e => by simp at e⟩
        have a1 := hq.flS e
        have a2 := hq.cT hs
        omega

end Verif.Backend
