import Verif.Backend.Heartbeat
/-
The reconciliation of a cluster keeps the invariant.
-/
set_option linter.unusedSimpArgs false
set_option linter.unusedVariables false
namespace Verif.Backend

/-! ### The log -/

@[simp] theorem wst_stopCluster (bulk : Bool) (x : Nat) (l : List Ext) :
    wst bulk x (.stopCluster :: l) = if bulk then .off else wst bulk x l := rfl
@[simp] theorem wst_startCluster (bulk : Bool) (x : Nat) (l : List Ext) :
    wst bulk x (.startCluster :: l) = wst bulk x l := rfl
@[simp] theorem wst_startedCluster (bulk : Bool) (x : Nat) (l : List Ext) :
    wst bulk x (.startedCluster :: l) = wst bulk x l := rfl

/-- The queue flag of a cluster. -/
def Cluster.setP (c : Cluster) (b : Bool) : Cluster := { c with vol := { c.vol with pending := b } }

theorem CP.setP {bulk : Bool} {c : Cluster} (h : CP bulk c) (b : Bool) : CP bulk (c.setP b) :=
  ⟨h.tgt, h.clo, h.cnt, h.stt, h.sch, h.nodup, h.lfin, h.sep, h.lcre, h.lnm, h.ws⟩

/-- What has to hold for a cluster not to be in the queue. -/
structure Settled (bulk : Bool) (c : Cluster) : Prop where
  nw1 : 5 ≤ c.row.target.n → 4 ≤ c.row.status.n
  nw2 : c.row.status.n = 4 → c.readyToClose bulk = true → c.vol.fl = .stopping
  nwS : c.row.status.n = 1 → c.row.target.n = 3 → c.vol.fl ≠ .idle
  rt5 : c.row.status.n = 3 → c.row.target.n = 3 → c.vol.added = true
  sup : c.row.status.n = 3 → c.row.target.n = 3 → c.row.count ≤ c.supply

theorem Inv.unpend {bulk : Bool} {c : Cluster} (h : Inv bulk c) (b : Bool)
    (hs : b = false → Settled bulk c) : Inv bulk (c.setP b) := by
  obtain ⟨hp, hv⟩ := h
  refine ⟨hp.setP b, ?_⟩
  cases b with
  | true =>
    exact ⟨hv.flS, hv.flT, fun _ _ => rfl, fun _ _ => Or.inl rfl, fun _ _ _ => rfl, hv.ready, hv.shut,
      hv.rt1, hv.rt2, hv.rt3, hv.rt4, fun _ _ h => by simp [Cluster.setP] at h,
      fun _ _ h => by simp [Cluster.setP] at h, hv.ws⟩
  | false =>
    have hs := hs rfl
    exact ⟨hv.flS, hv.flT, fun a b => absurd (hs.nw1 a) (Nat.not_le.2 b), fun a b => Or.inr (hs.nw2 a b),
      fun a b d => absurd d (hs.nwS a b), hv.ready, hv.shut,
      hv.rt1, hv.rt2, hv.rt3, hv.rt4, fun a b _ => hs.rt5 a b,
      fun a b _ => hs.sup a b, hv.ws⟩

/-- A micro-action that does not look at the queue flag. -/
def Act.blind (a : Act) : Prop := ∀ c b, ∃ b', a.onCluster (c.setP b) = (a.onCluster c).setP b'

theorem blind_onAll {l : List Act} (h : ∀ a ∈ l, a.blind) (c : Cluster) (b : Bool) :
    ∃ b', onAll (c.setP b) l = (onAll c l).setP b' := by
  induction l generalizing c b with
  | nil => exact ⟨b, rfl⟩
  | cons a l ih =>
    obtain ⟨b1, e1⟩ := h a (by simp) c b
    obtain ⟨b2, e2⟩ := ih (fun x hx => h x (by simp [hx])) (a.onCluster c) b1
    exact ⟨b2, by rw [onAll_cons, onAll_cons, e1, e2]⟩

theorem blind_prefix {bulk : Bool} {l : List Act} (h : ∀ a ∈ l, a.blind) (c : Cluster) (b : Bool)
    (hp : AllPrefix (CP bulk) c l) : AllPrefix (CP bulk) (c.setP b) l := by
  induction l generalizing c b with
  | nil => exact CP.setP hp b
  | cons a l ih =>
    obtain ⟨b1, e1⟩ := h a (by simp) c b
    refine ⟨CP.setP hp.1 b, ?_⟩
    rw [e1]
    exact ih (fun x hx => h x (by simp [hx])) _ b1 hp.2

/-- A cluster is taken from the queue, and what follows keeps the invariant. -/
theorem take_good {bulk : Bool} {c : Cluster} {l : List Act} (g : Good bulk c l)
    (hb : ∀ a ∈ l, a.blind)
    (hs : (onAll (c.setP false) l).vol.pending = false → Settled bulk (onAll c l)) :
    Good bulk c (.volC c.row.name (fun v => { v with pending := false }) :: l) := by
  have e : (Act.volC c.row.name (fun v => { v with pending := false })).onCluster c = c.setP false :=
    volC_on _ _ _ rfl
  refine ⟨⟨g.1.head, ?_⟩, ?_⟩
  · rw [e]; exact blind_prefix hb _ _ g.1
  · rw [onAll_cons, e]
    obtain ⟨b', e'⟩ := blind_onAll hb c false
    rw [e'] at hs ⊢
    exact g.2.unpend b' (fun hf => hs (by subst hf; rfl))

theorem blind_updC (f : Nat → CUpd) : (Act.updC f).blind := fun c b => ⟨b, rfl⟩
theorem blind_updW (f : Nat → Nat → WUpd) : (Act.updW f).blind := fun c b => ⟨b, rfl⟩
theorem blind_putW (f : Nat → Nat → Bool) : (Act.putW f).blind := fun c b => ⟨b, rfl⟩
theorem blind_volW (n w : Nat) (f : WVol → WVol) : (Act.volW n w f).blind := fun c b => ⟨b, rfl⟩
theorem blind_newW (n : Nat) (r : WRow) : (Act.newW n r).blind := fun c b => by
  refine ⟨b, ?_⟩
  by_cases hn : c.row.name = n
  · rw [newW_on _ _ _ hn, newW_on _ _ _ (by exact hn)]; rfl
  · rw [newW_off _ _ _ hn, newW_off _ _ _ (by exact hn)]
theorem blind_putC (f : Nat → Bool) : (Act.putC f).blind := fun c b => by
  by_cases h : f c.row.name = true
  · exact ⟨true, by simp [Act.onCluster, Cluster.setP, h]⟩
  · exact ⟨b, by simp [Act.onCluster, Cluster.setP, h]⟩
theorem blind_volC (n : Nat) (f : CVol → CVol)
    (h : ∀ v b, f { v with pending := b } = { f v with pending := b }) : (Act.volC n f).blind := fun c b => by
  refine ⟨b, ?_⟩
  by_cases hn : c.row.name = n
  · rw [volC_on _ _ _ hn, volC_on _ _ _ (by exact hn)]
    exact congrArg (fun v => ({ c with vol := v } : Cluster)) (h c.vol b)
  · rw [volC_off _ _ _ hn, volC_off _ _ _ (by exact hn)]

/-! ### Transitions -/

/-- `do_stop_cluster` is called. -/
theorem beginStop_good {bulk : Bool} {c : Cluster} (h : Inv bulk c) (h4 : c.row.status.n = 4)
    (hi : c.vol.fl = .idle) (hr : c.readyToClose bulk = true) :
    Good bulk c [.volC c.row.name (fun v => { v.addLog .stopCluster with fl := .stopping })] := by
  obtain ⟨hp, hv⟩ := h
  refine Good.one hp ?_
  rw [volC_on _ _ _ rfl]
  have hw (w) (hw : w ∈ c.workers) := (ready_closing (c := c) h4).1 hr w hw
  constructor
  · refine ⟨hp.tgt, hp.clo, hp.cnt, hp.stt, hp.sch, hp.nodup, fun _ => rfl, hp.sep, fun _ h1 => ?_, ?_, ?_⟩
    · simp only at h1; omega
    · intro x hx
      simp only [CVol.addLog, wst_stopCluster] at hx
      split at hx
      · simp at hx
      · exact hp.lnm x hx
    · intro w hm
      have hq := hp.ws w hm
      have e : wst bulk w.row.name (CVol.addLog .stopCluster c.vol).log = .off ∨
          wst bulk w.row.name (CVol.addLog .stopCluster c.vol).log = wst bulk w.row.name c.vol.log := by
        simp only [CVol.addLog, wst_stopCluster]
        split
        · exact Or.inl rfl
        · exact Or.inr rfl
      refine ⟨hq.tg, hq.fin, hq.clo, hq.tclo, hq.cfin, hq.ccl, ?_, ?_, ?_⟩ <;>
        rcases e with e | e <;> simp only [e]
      · exact fun _ => Or.inl trivial
      · exact hq.lfin
      · simp
      · exact hq.lcre
      · simp
      · exact hq.lop
  · refine ⟨fun e => by simp at e, fun _ => ⟨h4, rfl⟩, hv.nw1, fun _ _ => Or.inr rfl, fun h1 => ?_,
      hv.ready, hv.shut, hv.rt1, hv.rt2, hv.rt3, hv.rt4, hv.rt5, hv.sup, ?_⟩
    · simp only at h1; omega
    · intro w hm
      have hq := hv.ws w hm
      refine ⟨hq.flS, ?_, hq.nw3, hq.nw4, hq.nw5, ?_⟩
      · intro e
        refine ⟨(hq.flT e).1, ?_⟩
        simp only [CVol.addLog, wst_stopCluster]
        split
        · rfl
        · exact (hq.flT e).2
      · intro _
        have := hw w hm
        rw [closeTarget_n] at this
        cases bulk with
        | true => right; simpa [CVol.addLog] using this
        | false => left; simpa using this

/-- `do_start_cluster` is called. -/
theorem beginStart_good {bulk : Bool} {c : Cluster} (h : Inv bulk c) (h1 : c.row.status.n = 1)
    (hi : c.vol.fl = .idle) :
    Good bulk c [.volC c.row.name (fun v => { v.addLog .startCluster with fl := .starting })] := by
  obtain ⟨hp, hv⟩ := h
  refine Good.one hp ?_
  rw [volC_on _ _ _ rfl]
  have hss : startedSince c.vol.log = false := by
    cases e : startedSince c.vol.log with
    | false => rfl
    | true => have := hp.lcre e h1; rw [hi] at this; simp at this
  constructor
  · refine ⟨hp.tgt, hp.clo, hp.cnt, hp.stt, hp.sch, hp.nodup, fun h5 => ?_, ?_, fun _ _ => rfl, hp.lnm, ?_⟩
    · simp only at h5; omega
    · simp [CVol.addLog, separated, hss, hp.sep]
    · intro w hm
      have hq := hp.ws w hm
      exact ⟨hq.tg, hq.fin, hq.clo, hq.tclo, hq.cfin, hq.ccl, hq.lfin, hq.lcre, hq.lop⟩
  · refine ⟨fun _ => h1, fun e => by simp at e, hv.nw1, fun h4 => ?_, fun _ _ e => by simp at e,
      hv.ready, hv.shut, hv.rt1, hv.rt2, hv.rt3, hv.rt4, hv.rt5, hv.sup, ?_⟩
    · simp only at h4; omega
    · intro w hm
      have hq := hv.ws w hm
      exact ⟨hq.flS, hq.flT, hq.nw3, hq.nw4, hq.nw5, fun e => by simp at e⟩

/-- `_cluster_to_closing`. -/
theorem toClosing_good {cfg : Cfg} {c : Cluster} (h : Inv cfg.bulk c) (h4 : c.row.status.n < 4)
    (ht : 5 ≤ c.row.target.n) (hi : c.vol.fl = .idle) (hpend : c.vol.pending = true) :
    Good cfg.bulk c (toClosingActs cfg c) ∧
    ((onAll (c.setP false) (toClosingActs cfg c)).vol.pending = false →
      Settled cfg.bulk (onAll c (toClosingActs cfg c))) := by
  obtain ⟨hp, hv⟩ := h
  obtain ⟨ws, ews⟩ : ∃ ws, names (c.workers.filter
    (fun w => decide (w.row.target.n < (closeTarget cfg.bulk).n))) = ws := ⟨_, rfl⟩
  have hmem (w) (hw : w ∈ c.workers) : w.row.name ∈ ws ↔ w.row.target.n < (closeTarget cfg.bulk).n := by
    rw [← ews, mem_names_filter hp.nodup hw]; simp
  have hct : (closeTarget cfg.bulk).n = 4 ∧ cfg.bulk = true ∨ (closeTarget cfg.bulk).n = 5 := by
    rw [closeTarget_n]; cases cfg.bulk <;> simp
  have key (w) (hw : w ∈ c.workers) :
      (if w.row.name ∈ ws then
        { w with row := WUpd.app { target := some (closeTarget cfg.bulk) } w.row } else w) = w ∧
        (closeTarget cfg.bulk).n ≤ w.row.target.n ∧ w.row.name ∉ ws ∨
      w.row.target.n < (closeTarget cfg.bulk).n ∧ w.row.name ∈ ws ∧
      (if w.row.name ∈ ws then
        { w with row := WUpd.app { target := some (closeTarget cfg.bulk) } w.row } else w) =
        { w with row := { w.row with target := closeTarget cfg.bulk } } := by
    by_cases hm : w.row.name ∈ ws
    · right; exact ⟨(hmem w hw).1 hm, hm, by simp [hm, WUpd.app]⟩
    · left; exact ⟨by simp [hm], by have := mt (hmem w hw).2 hm; omega, hm⟩
  -- the workers' targets
  have a1 : (updWs c.row.name ws { target := some (closeTarget cfg.bulk) }).onCluster c =
      { c with workers := c.workers.map (fun w => if w.row.name ∈ ws then
        { w with row := WUpd.app { target := some (closeTarget cfg.bulk) } w.row } else w) } :=
    updWs_on _ _ _ _ rfl
  have wp (w) (hw : w ∈ c.workers) (cs : JobStatus) (hcs : cs.n ≤ 4) : WP cfg.bulk cs c.row.target c.vol.log
      (if w.row.name ∈ ws then
        { w with row := WUpd.app { target := some (closeTarget cfg.bulk) } w.row } else w) := by
    have hq := hp.ws w hw
    rcases key w hw with ⟨e, hle, -⟩ | ⟨hlt, -, e⟩ <;> rw [e]
    · exact ⟨hq.tg, hq.fin, hq.clo, hq.tclo, fun h => by omega, fun _ => hle, hq.lfin, hq.lcre, hq.lop⟩
    · refine ⟨?_, ?_, ?_, ?_, fun h => by omega, fun _ => Nat.le_refl _, hq.lfin, hq.lcre, hq.lop⟩
      · show 3 ≤ (closeTarget cfg.bulk).n; omega
      · intro h5
        have := hq.fin h5
        omega
      · intro h4
        exact ⟨(hq.clo h4).1, by show 4 ≤ (closeTarget cfg.bulk).n; omega⟩
      · intro h4
        have h4 : (closeTarget cfg.bulk).n = 4 := h4
        rcases hct with ⟨_, b⟩ | b
        · exact ⟨b, ht⟩
        · omega
  have c1 : CP cfg.bulk ((updWs c.row.name ws { target := some (closeTarget cfg.bulk) }).onCluster c) := by
    rw [a1]
    refine hp.mapWorkers ?_ ?_ (fun w hw => wp w hw _ (by omega))
    · intro w hw; split <;> rfl
    · intro w hw
      rcases key w hw with ⟨e, _⟩ | ⟨hlt, -, e⟩ <;> rw [e]
      · exact id
      · intro _; rw [wactive_iff]; omega
  -- the queue
  have a2 : (putWs c.row.name ws).onCluster
      ((updWs c.row.name ws { target := some (closeTarget cfg.bulk) }).onCluster c) =
      { c with workers := c.workers.map (fun w => if w.row.name ∈ ws then
        { row := { w.row with target := closeTarget cfg.bulk }, vol := { w.vol with pending := true } }
          else w) } := by
    rw [a1, putWs_on _ _ _ (by rfl)]
    simp only [List.map_map]
    congr 1
    apply List.map_congr_left
    intro w _
    simp only [Function.comp]
    by_cases hm : w.row.name ∈ ws <;> simp [hm, WUpd.app]
  have keyg (w) (hw : w ∈ c.workers) : (if w.row.name ∈ ws then
        ({ row := { w.row with target := closeTarget cfg.bulk }, vol := { w.vol with pending := true } } : Worker)
          else w) = w ∧ (closeTarget cfg.bulk).n ≤ w.row.target.n ∧ w.row.name ∉ ws ∨
      w.row.target.n < (closeTarget cfg.bulk).n ∧ w.row.name ∈ ws ∧ (if w.row.name ∈ ws then
        ({ row := { w.row with target := closeTarget cfg.bulk }, vol := { w.vol with pending := true } } : Worker)
          else w) =
        { row := { w.row with target := closeTarget cfg.bulk }, vol := { w.vol with pending := true } } := by
    by_cases hm : w.row.name ∈ ws
    · right; exact ⟨(hmem w hw).1 hm, hm, by simp [hm]⟩
    · left; exact ⟨by simp [hm], by have := mt (hmem w hw).2 hm; omega, hm⟩
  have wp2 (w) (hw : w ∈ c.workers) (cs : JobStatus) (hcs : cs.n ≤ 4) : WP cfg.bulk cs c.row.target c.vol.log
      (if w.row.name ∈ ws then
        ({ row := { w.row with target := closeTarget cfg.bulk }, vol := { w.vol with pending := true } } : Worker)
          else w) := by
    have := wp w hw cs hcs
    by_cases hm : w.row.name ∈ ws
    · simp only [hm, if_true] at this ⊢
      exact this.pend (b := true)
    · simpa [hm] using this
  have c2 : CP cfg.bulk { c with workers := c.workers.map (fun w => if w.row.name ∈ ws then
        { row := { w.row with target := closeTarget cfg.bulk }, vol := { w.vol with pending := true } }
          else w) } := by
    refine hp.mapWorkers ?_ ?_ (fun w hw => wp2 w hw _ (by omega))
    · intro w hw; split <;> rfl
    · intro w hw
      rcases keyg w hw with ⟨e, _⟩ | ⟨hlt, -, e⟩ <;> rw [e]
      · exact id
      · intro _; rw [wactive_iff]; omega
  -- the status
  have stn : ¬ 5 ≤ c.row.status.n := by omega
  have c3 : CP cfg.bulk { c with
      row := { c.row with status := .closing }
      workers := c.workers.map (fun w => if w.row.name ∈ ws then
        { row := { w.row with target := closeTarget cfg.bulk }, vol := { w.vol with pending := true } }
          else w) } := by
    refine ⟨hp.tgt, fun _ => ht, c2.cnt, ?_, fun e => by simp at e, c2.nodup, fun e => by simp at e,
      hp.sep, fun _ e => by simp at e, c2.lnm, ?_⟩
    · simpa [stn] using hp.stt
    · intro w' hw'
      obtain ⟨w, hw, rfl⟩ := List.mem_map.1 hw'
      exact wp2 w hw _ (by simp)
  -- the end
  have notReady (hne : ws ≠ []) (b : Bool) (r : Bool) : Cluster.readyToClose cfg.bulk { c with
      row := { c.row with status := .closing }
      vol := { c.vol with pending := b, ready := r }
      workers := c.workers.map (fun w => if w.row.name ∈ ws then
        { row := { w.row with target := closeTarget cfg.bulk }, vol := { w.vol with pending := true } }
          else w) } = false := by
    rw [← Bool.not_eq_true, ready_closing (by rfl)]
    intro hall
    obtain ⟨x, hx⟩ := List.exists_mem_of_ne_nil _ hne
    rw [← ews] at hx
    obtain ⟨w, hw, e⟩ := List.mem_map.1 hx
    obtain ⟨hw, hlt⟩ := List.mem_filter.1 hw
    have hlt : w.row.target.n < (closeTarget cfg.bulk).n := by simpa using hlt
    have := hall _ (List.mem_map.2 ⟨w, hw, rfl⟩)
    have this : (closeTarget cfg.bulk).n ≤ w.row.status.n := by
      split at this <;> exact this
    have hq := hp.ws w hw
    have q1 := hq.fin
    have q2 := hq.clo
    have q3 := n_range w.row.status
    rcases hct with ⟨b, _⟩ | b
    · by_cases h5 : 5 ≤ w.row.status.n
      · have := q1 h5; omega
      · have := (q2 (by omega)).2; omega
    · have := q1 (by omega); omega
  have wv (b : Bool) (hb : b = true ∨ ws ≠ []) : CV cfg.bulk { c with
      row := { c.row with status := .closing }
      vol := { c.vol with pending := b, ready := true }
      workers := c.workers.map (fun w => if w.row.name ∈ ws then
        { row := { w.row with target := closeTarget cfg.bulk }, vol := { w.vol with pending := true } }
          else w) } := by
    have sh : c.vol.shutdown = false := by rw [hv.shut]; simp [stn]
    refine ⟨fun e => ?_, fun e => ?_, fun _ e => ?_, fun _ e => ?_, fun e => by simp at e, by simp,
      by simp [sh], fun a e => ?_, fun a e => ?_, fun _ => by simp, fun e _ => ?_,
      fun e => by simp at e, fun e => by simp at e, ?_⟩
    · simp only [hi] at e; simp at e
    · simp only [hi] at e; simp at e
    · simp at e
    · rcases hb with hb | hb
      · left; exact hb
      · rw [notReady hb] at e; simp at e
    · exact ⟨Or.inr rfl, (hv.rt1 a e).2⟩
    · exact ⟨Or.inr rfl, (hv.rt2 a e).2⟩
    · exact hv.rt4 e (Or.inl (by have := hv.rt3 e; omega))
    · intro w' hw'
      obtain ⟨w, hw, rfl⟩ := List.mem_map.1 hw'
      have hq := hv.ws w hw
      rcases keyg w hw with ⟨e, _⟩ | ⟨hlt, -, e⟩ <;> rw [e]
      · exact ⟨hq.flS, hq.flT, hq.nw3, hq.nw4, hq.nw5, hq.cT⟩
      · refine ⟨hq.flS, fun e => ?_, fun _ _ => Or.inl rfl, fun _ _ => rfl, fun _ _ _ => rfl, fun e => ?_⟩
        · have := (hq.flT e).1; omega
        · simp only [hi] at e; simp at e
  have a3 (d : Cluster) (hd : d = { c with workers := c.workers.map (fun w => if w.row.name ∈ ws then
        { row := { w.row with target := closeTarget cfg.bulk }, vol := { w.vol with pending := true } }
          else w) }) : (updC1 c.row.name { status := some .closing }).onCluster d =
        { c with
      row := { c.row with status := .closing }
      workers := c.workers.map (fun w => if w.row.name ∈ ws then
        { row := { w.row with target := closeTarget cfg.bulk }, vol := { w.vol with pending := true } }
          else w) } := by
    subst hd
    rw [updC1_on _ _ _ (by rfl)]; rfl
  simp only [toClosingActs, ews]
  by_cases hne : ws = []
  · simp only [hne, if_true]
    rw [← hne]
    have fin : onAll c [updWs c.row.name ws { target := some (closeTarget cfg.bulk) },
        putWs c.row.name ws, updC1 c.row.name { status := some .closing }, putC1 c.row.name,
        .volC c.row.name (fun v => { v with ready := true })] =
      { c with
        row := { c.row with status := .closing }
        vol := { c.vol with pending := true, ready := true }
        workers := c.workers.map (fun w => if w.row.name ∈ ws then
        { row := { w.row with target := closeTarget cfg.bulk }, vol := { w.vol with pending := true } }
          else w) } := by
      simp only [onAll_cons, onAll_nil]
      rw [a3 _ a2, putC1_on _ _ (by rfl), volC_on _ _ _ (by rfl)]
    refine ⟨⟨?_, ?_⟩, ?_⟩
    · refine ⟨hp, c1, by rw [a2]; exact c2, by rw [a3 _ a2]; exact c3, ?_, ?_⟩
      · rw [a3 _ a2, putC1_on _ _ (by rfl)]; exact c3.setP true
      · rw [a3 _ a2, putC1_on _ _ (by rfl), volC_on _ _ _ (by rfl)]
        exact ⟨c3.tgt, c3.clo, c3.cnt, c3.stt, c3.sch, c3.nodup, c3.lfin, c3.sep, c3.lcre, c3.lnm, c3.ws⟩
    · rw [show ([updWs c.row.name ws { target := some (closeTarget cfg.bulk) },
        putWs c.row.name ws, updC1 c.row.name { status := some .closing }] ++ [putC1 c.row.name] ++
        [.volC c.row.name (fun v => { v with ready := true })]) = [updWs c.row.name ws { target := some (closeTarget cfg.bulk) },
        putWs c.row.name ws, updC1 c.row.name { status := some .closing }, putC1 c.row.name,
        .volC c.row.name (fun v => { v with ready := true })] from rfl, fin]
      exact ⟨⟨c3.tgt, c3.clo, c3.cnt, c3.stt, c3.sch, c3.nodup, c3.lfin, c3.sep, c3.lcre, c3.lnm, c3.ws⟩,
        wv true (Or.inl rfl)⟩
    · intro hf
      exfalso
      have : (onAll (c.setP false) ([updWs c.row.name ws { target := some (closeTarget cfg.bulk) },
        putWs c.row.name ws, updC1 c.row.name { status := some .closing }] ++ [putC1 c.row.name] ++
        [.volC c.row.name (fun v => { v with ready := true })])).vol.pending = true := by
        simp only [List.cons_append, List.nil_append, onAll_cons, onAll_nil]
        rw [putC1_on _ _ (by rw [onCluster_name, onCluster_name, onCluster_name]; rfl),
          volC_on _ _ _ (by
            show ((updC1 _ _).onCluster _).row.name = _
            rw [onCluster_name, onCluster_name, onCluster_name]; rfl)]
      rw [this] at hf
      simp at hf
  · simp only [hne, if_false, List.append_nil]
    have fin : onAll c [updWs c.row.name ws { target := some (closeTarget cfg.bulk) },
        putWs c.row.name ws, updC1 c.row.name { status := some .closing },
        .volC c.row.name (fun v => { v with ready := true })] =
      { c with
        row := { c.row with status := .closing }
        vol := { c.vol with pending := true, ready := true }
        workers := c.workers.map (fun w => if w.row.name ∈ ws then
        { row := { w.row with target := closeTarget cfg.bulk }, vol := { w.vol with pending := true } }
          else w) } := by
      simp only [onAll_cons, onAll_nil]
      rw [a3 _ a2, volC_on _ _ _ (by rfl)]
      simp [hpend]
    refine ⟨⟨?_, ?_⟩, ?_⟩
    · refine ⟨hp, c1, by rw [a2]; exact c2, by rw [a3 _ a2]; exact c3, ?_⟩
      rw [a3 _ a2, volC_on _ _ _ (by rfl)]
      exact ⟨c3.tgt, c3.clo, c3.cnt, c3.stt, c3.sch, c3.nodup, c3.lfin, c3.sep, c3.lcre, c3.lnm, c3.ws⟩
    · rw [show ([updWs c.row.name ws { target := some (closeTarget cfg.bulk) },
        putWs c.row.name ws, updC1 c.row.name { status := some .closing }] ++
        [.volC c.row.name (fun v => { v with ready := true })]) = [updWs c.row.name ws { target := some (closeTarget cfg.bulk) },
        putWs c.row.name ws, updC1 c.row.name { status := some .closing },
        .volC c.row.name (fun v => { v with ready := true })] from rfl, fin]
      exact ⟨⟨c3.tgt, c3.clo, c3.cnt, c3.stt, c3.sch, c3.nodup, c3.lfin, c3.sep, c3.lcre, c3.lnm, c3.ws⟩,
        wv true (Or.inl rfl)⟩
    · intro _
      rw [show ([updWs c.row.name ws { target := some (closeTarget cfg.bulk) },
        putWs c.row.name ws, updC1 c.row.name { status := some .closing }] ++
        [.volC c.row.name (fun v => { v with ready := true })]) = [updWs c.row.name ws { target := some (closeTarget cfg.bulk) },
        putWs c.row.name ws, updC1 c.row.name { status := some .closing },
        .volC c.row.name (fun v => { v with ready := true })] from rfl, fin]
      refine ⟨fun _ => by simp, fun _ e => ?_, fun e => by simp at e, fun e => by simp at e, fun e => by simp at e⟩
      rw [notReady hne] at e; simp at e

end Verif.Backend
