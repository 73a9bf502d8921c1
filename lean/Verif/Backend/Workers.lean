import Verif.Backend.Clusters2
/-
The reconciliation of a worker, and the ends of the calls for workers, keep the invariant.
-/
set_option linter.unusedSimpArgs false
set_option linter.unusedVariables false
namespace Verif.Backend

@[simp] theorem wst_startWorker (bulk : Bool) (x y : Nat) (l : List Ext) :
    wst bulk x (.startWorker y :: l) = if y = x then .starting else wst bulk x l := rfl
@[simp] theorem wst_startedWorker (bulk : Bool) (x y : Nat) (l : List Ext) :
    wst bulk x (.startedWorker y :: l) = if y = x ∧ wst bulk x l = .starting then .on else wst bulk x l := rfl
@[simp] theorem wst_stopWorker (bulk : Bool) (x y : Nat) (l : List Ext) :
    wst bulk x (.stopWorker y :: l) = if y = x then .off else wst bulk x l := rfl

/-- A change of the worker named `x`. -/
def Cluster.onW (c : Cluster) (x : Nat) (g : Worker → Worker) : Cluster :=
  { c with workers := c.workers.map (fun w => if w.row.name = x then g w else w) }

theorem updW1_onW (c : Cluster) (x : Nat) (u : WUpd) :
    (updW1 c.row.name x u).onCluster c = c.onW x (fun w => { w with row := u.app w.row }) :=
  updW1_on _ _ _ _ rfl

theorem volW_onW (c : Cluster) (x : Nat) (f : WVol → WVol) :
    (Act.volW c.row.name x f).onCluster c = c.onW x (fun w => { w with vol := f w.vol }) :=
  volW_on _ _ _ _ rfl

theorem putWs_onW (c : Cluster) (x : Nat) :
    (putWs c.row.name [x]).onCluster c = c.onW x (fun w => { w with vol := { w.vol with pending := true } }) := by
  rw [putWs_on _ _ _ rfl]
  simp [Cluster.onW]

theorem onW_onW (c : Cluster) (x : Nat) (g g' : Worker → Worker) (hg : ∀ w, (g w).row.name = w.row.name) :
    (c.onW x g).onW x g' = c.onW x (fun w => g' (g w)) := by
  simp only [Cluster.onW, List.map_map]
  congr 1
  apply List.map_congr_left
  intro w _
  by_cases h : w.row.name = x
  · subst h; simp [hg]
  · simp [h]

/-- The persistent part, after a change of one worker. -/
theorem CP.onW {bulk : Bool} {c : Cluster} (h : CP bulk c) {w : Worker} (hw : w ∈ c.workers) (g : Worker → Worker)
    (hn : (g w).row.name = w.row.name)
    (ha : (g w).row.active = true → w.row.active = true)
    (hq : WP bulk c.row.status c.row.target c.vol.log (g w)) : CP bulk (c.onW w.row.name g) := by
  have key (y) (hy : y ∈ c.workers) : y.row.name = w.row.name → y = w := fun e => name_inj h.nodup hy hw e
  refine h.mapWorkers ?_ ?_ ?_
  · intro y hy; split
    · rename_i e; rw [key y hy e]; exact hn
    · rfl
  · intro y hy; split
    · rename_i e; rw [key y hy e]; exact ha
    · exact id
  · intro y hy; split
    · rename_i e; rw [key y hy e]; exact hq
    · exact h.ws y hy

theorem CV.onW {bulk : Bool} {c : Cluster} (h : CV bulk c) (hnd : (names c.workers).Nodup)
    {w : Worker} (hw : w ∈ c.workers) (g : Worker → Worker)
    (hr : c.row.status.n = 4 → (closeTarget bulk).n ≤ (g w).row.status.n → (closeTarget bulk).n ≤ w.row.status.n)
    (hs : c.row.status.n = 3 → c.row.target.n = 3 → c.vol.pending = false →
      w.supplies = true → (g w).supplies = true)
    (hq : WV bulk c.vol.fl c.vol.log (g w)) : CV bulk (c.onW w.row.name g) := by
  have key (y) (hy : y ∈ c.workers) : y.row.name = w.row.name → y = w := fun e => name_inj hnd hy hw e
  refine h.mapWorkers ?_ ?_ ?_
  · intro h4 y hy; split
    · rename_i e; rw [key y hy e]; exact hr h4
    · exact id
  · intro h3 h3' hp y hy; split
    · rename_i e; rw [key y hy e]; exact hs h3 h3' hp
    · exact id
  · intro y hy; split
    · rename_i e; rw [key y hy e]; exact hq
    · exact h.ws y hy

/-- A call for worker `x` is added to the log. -/
theorem CP.logW {bulk : Bool} {c : Cluster} (h : CP bulk c) {w : Worker} (hw : w ∈ c.workers) (e : Ext)
    (he : e = .startWorker w.row.name ∨ e = .startedWorker w.row.name ∨ e = .stopWorker w.row.name)
    (hq : WP bulk c.row.status c.row.target (e :: c.vol.log) w) :
    CP bulk { c with vol := CVol.addLog e c.vol } := by
  have other (x) (hx : x ≠ w.row.name) : wst bulk x (e :: c.vol.log) = wst bulk x c.vol.log := by
    rcases he with rfl | rfl | rfl <;> simp [Ne.symm hx]
  refine ⟨h.tgt, h.clo, h.cnt, h.stt, h.sch, h.nodup, ?_, ?_, ?_, ?_, ?_⟩
  · rcases he with rfl | rfl | rfl <;> exact h.lfin
  · rcases he with rfl | rfl | rfl <;> exact h.sep
  · rcases he with rfl | rfl | rfl <;> exact h.lcre
  · intro x hx
    by_cases hxw : x = w.row.name
    · subst hxw; exact List.mem_map.2 ⟨w, hw, rfl⟩
    · simp only [CVol.addLog, other x hxw] at hx
      exact h.lnm x hx
  · intro y hy
    by_cases hxw : y.row.name = w.row.name
    · rw [name_inj h.nodup hy hw hxw]; exact hq
    · have hy' := h.ws y hy
      refine ⟨hy'.tg, hy'.fin, hy'.clo, hy'.tclo, hy'.cfin, hy'.ccl, ?_, ?_, ?_⟩ <;>
        simp only [CVol.addLog, other _ hxw]
      · exact hy'.lfin
      · exact hy'.lcre
      · exact hy'.lop

theorem CV.logW {bulk : Bool} {c : Cluster} (h : CV bulk c) (hnd : (names c.workers).Nodup)
    {w : Worker} (hw : w ∈ c.workers) (e : Ext)
    (he : e = .startWorker w.row.name ∨ e = .startedWorker w.row.name ∨ e = .stopWorker w.row.name)
    (hq : WV bulk c.vol.fl (e :: c.vol.log) w) :
    CV bulk { c with vol := CVol.addLog e c.vol } := by
  have other (x) (hx : x ≠ w.row.name) : wst bulk x (e :: c.vol.log) = wst bulk x c.vol.log := by
    rcases he with rfl | rfl | rfl <;> simp [Ne.symm hx]
  refine ⟨h.flS, ?_, h.nw1, h.nw2, h.nwS, h.ready, h.shut, h.rt1, h.rt2, h.rt3, h.rt4, h.rt5, h.sup, ?_⟩
  · rcases he with rfl | rfl | rfl <;> exact h.flT
  · intro y hy
    by_cases hxw : y.row.name = w.row.name
    · rw [name_inj hnd hy hw hxw]; exact hq
    · have hy' := h.ws y hy
      refine ⟨hy'.flS, ?_, hy'.nw3, hy'.nw4, hy'.nw5, ?_⟩ <;> simp only [CVol.addLog, other _ hxw]
      · exact hy'.flT
      · exact hy'.cT

/-! ### Taking a worker from the queue -/

/-- The queue flag of a worker. -/
def Cluster.setPW (c : Cluster) (x : Nat) (b : Bool) : Cluster :=
  c.onW x (fun w => { w with vol := { w.vol with pending := b } })

/-- A micro-action that does not look at the queue flag of worker `x`. -/
def Act.blindW (x : Nat) (a : Act) : Prop := ∀ c b, a.onCluster (c.setPW x b) = (a.onCluster c).setPW x b

theorem blindW_onAll {x : Nat} {l : List Act} (h : ∀ a ∈ l, a.blindW x) (c : Cluster) (b : Bool) :
    onAll (c.setPW x b) l = (onAll c l).setPW x b := by
  induction l generalizing c with
  | nil => rfl
  | cons a l ih =>
    rw [onAll_cons, onAll_cons, h a (by simp) c b]
    exact ih (fun y hy => h y (by simp [hy])) _

theorem CP.setPW {bulk : Bool} {c : Cluster} (h : CP bulk c) (x : Nat) (b : Bool) : CP bulk (c.setPW x b) := by
  refine h.mapWorkers ?_ ?_ ?_
  · intro y hy; split <;> rfl
  · intro y hy; split <;> exact id
  · intro y hy; split
    · exact (h.ws y hy).pend
    · exact h.ws y hy

theorem blindW_prefix {bulk : Bool} {x : Nat} {l : List Act} (h : ∀ a ∈ l, a.blindW x) (c : Cluster) (b : Bool)
    (hp : AllPrefix (CP bulk) c l) : AllPrefix (CP bulk) (c.setPW x b) l := by
  induction l generalizing c with
  | nil => exact CP.setPW hp x b
  | cons a l ih =>
    refine ⟨CP.setPW hp.1 x b, ?_⟩
    rw [h a (by simp) c b]
    exact ih (fun y hy => h y (by simp [hy])) _ hp.2

/-- What has to hold for a worker not to be in the queue. -/
structure WSettled (w : Worker) : Prop where
  nw3 : 5 ≤ w.row.target.n → 5 ≤ w.row.status.n ∨ w.vol.fl = .stopping
  nw4 : w.row.target.n = 4 → 4 ≤ w.row.status.n
  nw5 : w.row.status.n = 1 → w.row.target.n = 3 → w.vol.fl ≠ .idle

theorem Inv.unpendW {bulk : Bool} {c : Cluster} (h : Inv bulk c) (x : Nat)
    (hs : ∀ w ∈ c.workers, w.row.name = x → WSettled w) : Inv bulk (c.setPW x false) := by
  refine ⟨h.1.setPW x false, ?_⟩
  refine h.2.mapWorkers ?_ ?_ ?_
  · intro _ y hy; split <;> exact id
  · intro _ _ _ y hy; split <;> exact id
  · intro y hy
    have hq := h.2.ws y hy
    split
    · rename_i e
      have hs := hs y hy e
      exact ⟨hq.flS, hq.flT, fun a b => Or.inr ((hs.nw3 a).resolve_left (Nat.not_le.2 b)),
        fun a b => absurd (hs.nw4 a) (Nat.not_le.2 b), fun a b d => absurd d (hs.nw5 a b), hq.cT⟩
    · exact hq

theorem takeW_good {bulk : Bool} {c : Cluster} {x : Nat} {l : List Act} (g : Good bulk c l)
    (hb : ∀ a ∈ l, a.blindW x)
    (hs : ∀ w ∈ (onAll c l).workers, w.row.name = x → WSettled w) :
    Good bulk c (.volW c.row.name x (fun v => { v with pending := false }) :: l) := by
  have e : (Act.volW c.row.name x (fun v => { v with pending := false })).onCluster c = c.setPW x false :=
    volW_onW _ _ _
  refine ⟨⟨g.1.head, ?_⟩, ?_⟩
  · rw [e]; exact blindW_prefix hb _ _ g.1
  · rw [onAll_cons, e, blindW_onAll hb]
    exact g.2.unpendW x hs

theorem blindW_putC (x : Nat) (f : Nat → Bool) : (Act.putC f).blindW x := fun c b => by
  by_cases h : f c.row.name = true <;> simp [Act.onCluster, Cluster.setPW, Cluster.onW, h]
theorem blindW_volC (x n : Nat) (f : CVol → CVol) : (Act.volC n f).blindW x := fun c b => by
  by_cases h : n = c.row.name <;> simp [Act.onCluster, Cluster.setPW, Cluster.onW, h]
theorem blindW_updW (x : Nat) (f : Nat → Nat → WUpd) : (Act.updW f).blindW x := fun c b => by
  rw [updW_on, updW_on]
  simp only [Cluster.setPW, Cluster.onW, List.map_map]
  congr 1
  apply List.map_congr_left
  intro w _
  by_cases h : w.row.name = x
  · simp [Function.comp, h]
  · simp [Function.comp, h]
theorem blindW_volW (x n y : Nat) (f : WVol → WVol)
    (hf : ∀ v b, f { v with pending := b } = { f v with pending := b }) : (Act.volW n y f).blindW x := fun c b => by
  by_cases hn : c.row.name = n
  · rw [volW_on _ _ _ _ hn, volW_on _ _ _ _ (by exact hn)]
    simp only [Cluster.setPW, Cluster.onW, List.map_map]
    congr 1
    apply List.map_congr_left
    intro w _
    simp only [Function.comp]
    by_cases h1 : w.row.name = x <;> by_cases h2 : w.row.name = y
    · have hxy : x = y := h1.symm.trans h2
      simp only [h1, hxy, if_true]
      rw [hf]
    · simp only [h1, h2, if_true, if_false]; rw [h1] at h2; simp [h1, h2]
    · simp only [h1, h2, if_true, if_false]; rw [h2] at h1; simp [h1, h2]
    · simp [h1, h2]
  · rw [volW_off _ _ _ _ hn, volW_off _ _ _ _ (by exact hn)]

/-! ### Transitions -/

theorem mem_onW {c : Cluster} {x : Nat} {g : Worker → Worker} {w : Worker} (hw : w ∈ c.workers)
    (hx : w.row.name = x) : g w ∈ (c.onW x g).workers :=
  List.mem_map.2 ⟨w, hw, by simp [hx]⟩

/-- All workers named `x` after a change of it. -/
theorem onW_mem {c : Cluster} (hnd : (names c.workers).Nodup) {g : Worker → Worker} {w y : Worker}
    (hw : w ∈ c.workers) (hg : (g w).row.name = w.row.name)
    (hy : y ∈ (c.onW w.row.name g).workers) (e : y.row.name = w.row.name) : y = g w := by
  obtain ⟨z, hz, rfl⟩ := List.mem_map.1 hy
  by_cases h : z.row.name = w.row.name
  · have := name_inj hnd hz hw h
    subst this
    simp
  · simp [h] at e

/-- `do_stop_worker` is called. -/
theorem beginStopW_good {bulk : Bool} {c : Cluster} (h : Inv bulk c) {w : Worker} (hw : w ∈ c.workers)
    (hi : w.vol.fl = .idle) (h1 : 1 < w.row.status.n) (h5 : w.row.status.n < 5) (ht : 5 ≤ w.row.target.n) :
    Good bulk c [.volW c.row.name w.row.name (fun v => { v with fl := .stopping }),
      .volC c.row.name (CVol.addLog (.stopWorker w.row.name))] ∧
    onAll c [.volW c.row.name w.row.name (fun v => { v with fl := .stopping }),
      .volC c.row.name (CVol.addLog (.stopWorker w.row.name))] =
    { c.onW w.row.name (fun w => { w with vol := { w.vol with fl := .stopping } }) with
      vol := CVol.addLog (.stopWorker w.row.name) c.vol } := by
  obtain ⟨hp, hv⟩ := h
  have hq := hp.ws w hw
  have hq' := hv.ws w hw
  have nst : wst bulk w.row.name c.vol.log ≠ .starting := fun e => by
    have := hq.lop e; rw [hi] at this; simp at this
  have e1 : (Act.volW c.row.name w.row.name (fun v => { v with fl := .stopping })).onCluster c =
      c.onW w.row.name (fun w => { w with vol := { w.vol with fl := .stopping } }) := volW_onW _ _ _
  have e2 : (Act.volC c.row.name (CVol.addLog (.stopWorker w.row.name))).onCluster
      (c.onW w.row.name (fun w => { w with vol := { w.vol with fl := .stopping } })) =
      { c.onW w.row.name (fun w => { w with vol := { w.vol with fl := .stopping } }) with
        vol := CVol.addLog (.stopWorker w.row.name) c.vol } := volC_on _ _ _ rfl
  have c1 : CP bulk (c.onW w.row.name (fun w => { w with vol := { w.vol with fl := .stopping } })) :=
    hp.onW hw _ rfl id ⟨hq.tg, hq.fin, hq.clo, hq.tclo, hq.cfin, hq.ccl, hq.lfin, hq.lcre, fun e => absurd e nst⟩
  refine ⟨Good.two hp (by rw [e1]; exact c1) ?_, by rw [onAll_cons, onAll_cons, onAll_nil, e1, e2]⟩
  rw [e1, e2]
  have hm : { w with vol := { w.vol with fl := .stopping } } ∈ (c.onW w.row.name (fun w => { w with vol := { w.vol with fl := .stopping } })).workers :=
    mem_onW (g := fun w => { w with vol := { w.vol with fl := .stopping } }) hw rfl
  have c2 := c1.logW hm (.stopWorker w.row.name) (Or.inr (Or.inr rfl))
    ⟨hq.tg, hq.fin, hq.clo, hq.tclo, hq.cfin, hq.ccl, fun _ => by simp, fun _ => by simp, fun e => by simp at e⟩
  refine ⟨c2, ?_⟩
  -- first the log, then the flag
  have v1 : CV bulk { c with vol := CVol.addLog (.stopWorker w.row.name) c.vol } :=
    hv.logW hp.nodup hw _ (Or.inr (Or.inr rfl)) ⟨hq'.flS, fun e => ⟨ht, by simp⟩, hq'.nw3, hq'.nw4, hq'.nw5,
      fun e => by
        rcases hq'.cT e with h | h
        · exact Or.inl h
        · exact Or.inr ⟨h.1, h.2.1, by simp⟩⟩
  exact v1.onW hp.nodup hw (fun w => { w with vol := { w.vol with fl := .stopping } }) (fun _ => id) (fun _ _ _ => id)
    ⟨fun e => by simp at e, fun _ => ⟨ht, by simp [CVol.addLog]⟩, fun _ _ => Or.inr rfl, hq'.nw4,
      fun _ _ e => by simp at e, (v1.ws w hw).cT⟩

/-- `do_start_worker` is called. -/
theorem beginStartW_good {bulk : Bool} {c : Cluster} (h : Inv bulk c) {w : Worker} (hw : w ∈ c.workers)
    (hi : w.vol.fl = .idle) (h1 : w.row.status.n = 1) (ht : w.row.target.n = 3) :
    Good bulk c [.volW c.row.name w.row.name (fun v => { v with fl := .starting }),
      .volC c.row.name (CVol.addLog (.startWorker w.row.name))] ∧
    onAll c [.volW c.row.name w.row.name (fun v => { v with fl := .starting }),
      .volC c.row.name (CVol.addLog (.startWorker w.row.name))] =
    { c.onW w.row.name (fun w => { w with vol := { w.vol with fl := .starting } }) with
      vol := CVol.addLog (.startWorker w.row.name) c.vol } := by
  obtain ⟨hp, hv⟩ := h
  have hq := hp.ws w hw
  have hq' := hv.ws w hw
  have e1 : (Act.volW c.row.name w.row.name (fun v => { v with fl := .starting })).onCluster c =
      c.onW w.row.name (fun w => { w with vol := { w.vol with fl := .starting } }) := volW_onW _ _ _
  have e2 : (Act.volC c.row.name (CVol.addLog (.startWorker w.row.name))).onCluster
      (c.onW w.row.name (fun w => { w with vol := { w.vol with fl := .starting } })) =
      { c.onW w.row.name (fun w => { w with vol := { w.vol with fl := .starting } }) with
        vol := CVol.addLog (.startWorker w.row.name) c.vol } := volC_on _ _ _ rfl
  have c1 : CP bulk (c.onW w.row.name (fun w => { w with vol := { w.vol with fl := .starting } })) :=
    hp.onW hw _ rfl id ⟨hq.tg, hq.fin, hq.clo, hq.tclo, hq.cfin, hq.ccl, hq.lfin, hq.lcre, fun _ => rfl⟩
  refine ⟨Good.two hp (by rw [e1]; exact c1) ?_, by rw [onAll_cons, onAll_cons, onAll_nil, e1, e2]⟩
  rw [e1, e2]
  have hm : { w with vol := { w.vol with fl := .starting } } ∈ (c.onW w.row.name (fun w => { w with vol := { w.vol with fl := .starting } })).workers :=
    mem_onW (g := fun w => { w with vol := { w.vol with fl := .starting } }) hw rfl
  have ncs : c.row.status.n < 5 := Nat.lt_of_not_le (fun e => by have := hq.cfin e; omega)
  have c2 := c1.logW hm (.startWorker w.row.name) (Or.inl rfl)
    ⟨hq.tg, hq.fin, hq.clo, hq.tclo, hq.cfin, hq.ccl, fun e => by simp only at e; omega, fun _ => by simp, fun _ => rfl⟩
  refine ⟨c2, ?_⟩
  have v1 := hv.onW hp.nodup hw (fun w => { w with vol := { w.vol with fl := .starting } }) (fun _ => id) (fun _ _ _ => id)
    ⟨fun _ => Or.inl h1, fun e => by simp at e, fun a _ => by simp only at a; omega, hq'.nw4,
      fun _ _ e => by simp at e, hq'.cT⟩
  refine v1.logW c1.nodup hm _ (Or.inl rfl) ?_
  have hx := v1.ws _ hm
  refine ⟨hx.flS, fun e => by simp at e, hx.nw3, hx.nw4, hx.nw5, fun e => ?_⟩
  have := hq'.cT e; omega

/-- A worker becomes closing, and the cluster is queued if it is ready. -/
theorem closeW_good {bulk : Bool} {c : Cluster} (h : Inv bulk c) {w : Worker} (hw : w ∈ c.workers)
    (hi : w.vol.fl = .idle) (h4 : w.row.status.n < 4) (ht : w.row.target.n = 4) :
    Good bulk c ([updW1 c.row.name w.row.name { status := some .closing }] ++
      (if Cluster.readyToClose bulk ((updW1 c.row.name w.row.name { status := some .closing }).onCluster c) then
        [putC1 c.row.name] else [])) ∧
    ∃ p, onAll c ([updW1 c.row.name w.row.name { status := some .closing }] ++
      (if Cluster.readyToClose bulk ((updW1 c.row.name w.row.name { status := some .closing }).onCluster c) then
        [putC1 c.row.name] else [])) =
      { c.onW w.row.name (fun w => { w with row := { w.row with status := .closing } }) with
        vol := { c.vol with pending := p } } := by
  obtain ⟨hp, hv⟩ := h
  have hq := hp.ws w hw
  have hq' := hv.ws w hw
  have e1 : (updW1 c.row.name w.row.name { status := some .closing }).onCluster c =
      c.onW w.row.name (fun w => { w with row := { w.row with status := .closing } }) := updW1_onW _ _ _
  obtain ⟨hb, hct⟩ := hq.tclo ht
  have ncs : c.row.status.n < 5 := Nat.lt_of_not_le (fun e => by have := hq.cfin e; omega)
  have c1 : CP bulk (c.onW w.row.name (fun w => { w with row := { w.row with status := .closing } })) :=
    hp.onW hw _ rfl id ⟨hq.tg, fun e => by simp at e, fun _ => ⟨hb, by simp [ht]⟩, hq.tclo,
      fun e => absurd e (Nat.not_le.2 ncs), hq.ccl, fun e => by simp at e, fun e => by simp at e, hq.lop⟩
  have wv : WV bulk c.vol.fl c.vol.log { w with row := { w.row with status := .closing } } := by
    refine ⟨fun e => ?_, hq'.flT, fun a => by simp only [ht] at a; omega, fun _ e => by simp at e,
      fun e => by simp at e, fun e => ?_⟩
    · simp only [hi] at e; simp at e
    · have := hq'.cT e; omega
  have ws (y) (hy : y ∈ (c.onW w.row.name (fun w => { w with row := { w.row with status := .closing } })).workers) :
      WV bulk c.vol.fl c.vol.log y := by
    obtain ⟨z, hz, rfl⟩ := List.mem_map.1 hy
    split
    · rename_i e; rw [name_inj hp.nodup hz hw e]; exact wv
    · exact hv.ws z hz
  rw [e1]
  split
  · rename_i hr
    have e2 : (putC1 c.row.name).onCluster
        (c.onW w.row.name (fun w => { w with row := { w.row with status := .closing } })) =
        { c.onW w.row.name (fun w => { w with row := { w.row with status := .closing } }) with
          vol := { c.vol with pending := true } } := putC1_on _ _ rfl
    refine ⟨Good.two hp (by rw [e1]; exact c1) ?_, true, ?_⟩
    · rw [e1, e2]
      refine ⟨c1.setP true, ?_⟩
      exact ⟨hv.flS, hv.flT, fun _ _ => rfl, fun _ _ => Or.inl rfl, fun _ _ _ => rfl, hv.ready, hv.shut,
        hv.rt1, hv.rt2, hv.rt3, hv.rt4, fun _ _ e => by simp at e, fun _ _ e => by simp at e, ws⟩
    · simp only [List.cons_append, List.nil_append, onAll_cons, onAll_nil, e1, e2]
  · rename_i hr
    refine ⟨Good.one hp ?_, c.vol.pending, ?_⟩
    · rw [e1]
      refine ⟨c1, ?_⟩
      exact ⟨hv.flS, hv.flT, hv.nw1, fun _ e => absurd e hr, hv.nwS, hv.ready, hv.shut,
        hv.rt1, hv.rt2, hv.rt3, hv.rt4, hv.rt5, fun _ e => by change c.row.target.n = 3 at e; omega, ws⟩
    · simp only [List.append_nil, onAll_cons, onAll_nil, e1]; rfl

/-- A worker is stopped, and the cluster is queued if it has to look. -/
theorem workerStopped_good {cfg : Cfg} {c : Cluster} (h : Inv cfg.bulk c) (now : Int) {w : Worker} (hw : w ∈ c.workers)
    (hi : w.vol.fl ≠ .starting) (ht : 5 ≤ w.row.target.n)
    (hl : wst cfg.bulk w.row.name c.vol.log = .off ∨ wst cfg.bulk w.row.name c.vol.log = .lost) :
    Good cfg.bulk c (workerStoppedActs cfg c w.row now) ∧
    ∃ p, onAll c (workerStoppedActs cfg c w.row now) =
      { c.onW w.row.name (fun y => { y with row := { y.row with status := w.row.target, stopTime := some now } }) with
        vol := { c.vol with pending := p } } := by
  obtain ⟨hp, hv⟩ := h
  have hq := hp.ws w hw
  have hq' := hv.ws w hw
  simp only [workerStoppedActs]
  have e1 : (updW1 c.row.name w.row.name { status := some w.row.target, stopTime := some now }).onCluster c =
      c.onW w.row.name (fun y => { y with row := { y.row with status := w.row.target, stopTime := some now } }) :=
    updW1_onW _ _ _
  have c1 : CP cfg.bulk (c.onW w.row.name (fun y => { y with row := { y.row with status := w.row.target, stopTime := some now } })) :=
    hp.onW hw _ rfl id ⟨hq.tg, fun _ => ht, fun e => by simp only at e; omega, hq.tclo,
      fun _ => ht, hq.ccl, fun _ => hl, fun e => by simp only at e; omega, hq.lop⟩
  have wv : WV cfg.bulk c.vol.fl c.vol.log { w with row := { w.row with status := w.row.target, stopTime := some now } } := by
    refine ⟨fun e => absurd e hi, hq'.flT, fun _ e => by simp only at e; omega, fun _ e => by simp only at e; omega,
      fun e => by simp only at e; omega, fun e => Or.inl ht⟩
  have ws (y) (hy : y ∈ (c.onW w.row.name (fun y => { y with row := { y.row with status := w.row.target, stopTime := some now } })).workers) :
      WV cfg.bulk c.vol.fl c.vol.log y := by
    obtain ⟨z, hz, rfl⟩ := List.mem_map.1 hy
    split
    · rename_i e; rw [name_inj hp.nodup hz hw e]; exact wv
    · exact hv.ws z hz
  rw [e1]
  split
  · rename_i hr
    have e2 : (putC1 c.row.name).onCluster
        (c.onW w.row.name (fun y => { y with row := { y.row with status := w.row.target, stopTime := some now } })) =
        { c.onW w.row.name (fun y => { y with row := { y.row with status := w.row.target, stopTime := some now } }) with
          vol := { c.vol with pending := true } } := putC1_on _ _ rfl
    refine ⟨Good.two hp (by rw [e1]; exact c1) ?_, true, ?_⟩
    · rw [e1, e2]
      refine ⟨c1.setP true, ?_⟩
      exact ⟨hv.flS, hv.flT, fun _ _ => rfl, fun _ _ => Or.inl rfl, fun _ _ _ => rfl, hv.ready, hv.shut,
        hv.rt1, hv.rt2, hv.rt3, hv.rt4, fun _ _ e => by simp at e, fun _ _ e => by simp at e, ws⟩
    · simp only [List.cons_append, List.nil_append, onAll_cons, onAll_nil, e1, e2]
  · rename_i hr
    simp only [requeueAfterStop, Bool.or_eq_true, not_or] at hr
    obtain ⟨hr1, hr2⟩ := hr
    refine ⟨Good.one hp ?_, c.vol.pending, ?_⟩
    · rw [e1]
      refine ⟨c1, ?_⟩
      refine ⟨hv.flS, hv.flT, hv.nw1, fun _ e => absurd e hr1, hv.nwS, hv.ready, hv.shut,
        hv.rt1, hv.rt2, hv.rt3, hv.rt4, hv.rt5, fun a b d => ?_, ws⟩
      have ce : w.row.closeExpected = true := by
        have b' : c.row.target = .running := n_eq3.2 b
        have e3 : (c.onW w.row.name (fun y => { y with row := { y.row with status := w.row.target, stopTime := some now } })).row.target = .running := b'
        rw [e3] at hr2
        simpa using hr2
      have h1 := hv.sup a b d
      have h2 : c.supply ≤ (c.onW w.row.name (fun y => { y with row := { y.row with status := w.row.target, stopTime := some now } })).supply := by
        apply filter_map_ge
        intro y hy
        split
        · rename_i e; rw [name_inj hp.nodup hy hw e]
          intro _; simp [Worker.supplies, ce]
        · exact id
      have e4 : (c.onW w.row.name (fun y => { y with row := { y.row with status := w.row.target, stopTime := some now } })).row.count = c.row.count := rfl
      rw [e4]
      omega
    · simp only [List.append_nil, onAll_cons, onAll_nil, e1]; rfl

/-- A reconciliation of a worker keeps the invariant. -/
theorem reconcileWorker_good {cfg : Cfg} {c : Cluster} (h : Inv cfg.bulk c) (now : Int) {w : Worker}
    (hw : w ∈ c.workers) (hi : w.vol.fl = .idle) :
    Good cfg.bulk c (.volW c.row.name w.row.name (fun v => { v with pending := false }) ::
      reconcileWorkerActs cfg c w.row now) := by
  have hp := h.1
  have hv := h.2
  have hq := hp.ws w hw
  have hq' := hv.ws w hw
  have uniq (y) (hy : y ∈ c.workers) (e : y.row.name = w.row.name) : y = w := name_inj hp.nodup hy hw e
  simp only [reconcileWorkerActs]
  split
  · rename_i h5
    have h5 : 5 ≤ w.row.status.n := h5
    refine takeW_good (Good.nil h) (by simp) (fun y hy e => ?_)
    have hy : y ∈ c.workers := hy
    rw [uniq y hy e]
    exact ⟨fun _ => Or.inl h5, fun _ => by omega, fun e => by omega⟩
  · rename_i h5
    have h5 : w.row.status.n < 5 := Nat.lt_of_not_le h5
    split
    · rename_i ht
      rw [n_eq4] at ht
      by_cases h4 : w.row.status = .closing
      · simp only [h4, if_true, List.nil_append]
        rw [n_eq4] at h4
        have g : Good cfg.bulk c (if Cluster.readyToClose cfg.bulk c = true then [putC1 c.row.name] else []) := by
          split
          · exact put_good h _
          · exact Good.nil h
        have ew : (onAll c (if Cluster.readyToClose cfg.bulk c = true then [putC1 c.row.name] else [])).workers = c.workers := by
          split
          · rw [onAll_cons, onAll_nil, putC1_on _ _ rfl]
          · rfl
        refine takeW_good g ?_ ?_
        · intro a ha
          split at ha
          · simp at ha; subst ha; exact blindW_putC _ _
          · simp at ha
        · rw [ew]
          intro y hy e
          rw [uniq y hy e]
          exact ⟨fun _ => by omega, fun _ => by omega, fun e => by omega⟩
      · simp only [h4, if_false]
        rw [n_eq4] at h4
        have hlt : w.row.status.n < 4 := by omega
        obtain ⟨g, p, e⟩ := closeW_good h hw hi hlt ht
        refine takeW_good g ?_ ?_
        · intro a ha
          simp only [List.mem_append, List.mem_singleton] at ha
          rcases ha with rfl | ha
          · exact blindW_updW _ _
          · split at ha
            · simp at ha; subst ha; exact blindW_putC _ _
            · simp at ha
        · rw [e]
          intro y hy ey
          rw [onW_mem (w := w) (g := fun w => { w with row := { w.row with status := .closing } }) hp.nodup hw rfl hy ey]
          exact ⟨fun a => by simp only at a; omega, fun _ => by simp, fun e => by simp at e⟩
    · rename_i ht4
      rw [n_eq4] at ht4
      split
      · rename_i ht
        have ht : 5 ≤ w.row.target.n := by rw [n_ge5]; exact ht
        split
        · rename_i h1
          have h1 : 1 < w.row.status.n := h1
          obtain ⟨g, e⟩ := beginStopW_good h hw hi h1 h5 ht
          refine takeW_good g ?_ ?_
          · intro a ha
            simp at ha
            rcases ha with rfl | rfl
            · exact blindW_volW _ _ _ _ (fun _ _ => rfl)
            · exact blindW_volC _ _ _
          · rw [e]
            intro y hy ey
            rw [onW_mem (w := w) (g := fun w => { w with vol := { w.vol with fl := .stopping } }) hp.nodup hw rfl hy ey]
            exact ⟨fun _ => Or.inr rfl, fun a => by simp only at a; omega, fun _ _ => by simp⟩
        · rename_i h1
          have h1 : ¬ 1 < w.row.status.n := h1
          have hr := n_range w.row.status
          have hl : wst cfg.bulk w.row.name c.vol.log = .off ∨ wst cfg.bulk w.row.name c.vol.log = .lost := by
            have a1 := hq.lcre (by omega)
            have a2 : wst cfg.bulk w.row.name c.vol.log ≠ .starting := fun e => by
              have := hq.lop e; rw [hi] at this; simp at this
            generalize wst cfg.bulk w.row.name c.vol.log = z at a1 a2
            cases z <;> simp at a1 a2 ⊢
          obtain ⟨g, p, e⟩ := workerStopped_good h now hw (by rw [hi]; simp) ht hl
          refine takeW_good g ?_ ?_
          · intro a ha
            simp only [workerStoppedActs, List.mem_append, List.mem_singleton] at ha
            rcases ha with rfl | ha
            · exact blindW_updW _ _
            · split at ha
              · simp at ha; subst ha; exact blindW_putC _ _
              · simp at ha
          · rw [e]
            intro y hy ey
            rw [onW_mem (w := w) (g := fun y => { y with row := { y.row with status := w.row.target, stopTime := some now } }) hp.nodup hw rfl hy ey]
            exact ⟨fun _ => Or.inl ht, fun a => by simp only at a ⊢; omega, fun a b => by simp only at a b; omega⟩
      · rename_i ht
        have ht5 : ¬ 5 ≤ w.row.target.n := by rw [n_ge5]; exact ht
        have ht : w.row.target.n = 3 := by have := hq.tg; omega
        split
        · rename_i h1
          have h1 := n_eq1.1 h1.1
          obtain ⟨g, e⟩ := beginStartW_good h hw hi h1 ht
          refine takeW_good g ?_ ?_
          · intro a ha
            simp at ha
            rcases ha with rfl | rfl
            · exact blindW_volW _ _ _ _ (fun _ _ => rfl)
            · exact blindW_volC _ _ _
          · rw [e]
            intro y hy ey
            rw [onW_mem (w := w) (g := fun w => { w with vol := { w.vol with fl := .starting } }) hp.nodup hw rfl hy ey]
            exact ⟨fun a => by simp only at a; omega, fun a => by simp only at a; omega, fun _ _ => by simp⟩
        · rename_i h1
          refine takeW_good (Good.nil h) (by simp) (fun y hy e => ?_)
          have hy : y ∈ c.workers := hy
          rw [uniq y hy e]
          exact ⟨fun a => by omega, fun a => by omega, fun a b => absurd ⟨n_eq1.2 a, n_eq3.2 b⟩ h1⟩

/-! ### The ends of the calls -/

theorem yieldW_good {bulk : Bool} {c : Cluster} (h : Inv bulk c) (n x st : Nat) :
    Good bulk c [updW1 n x { state := some st }] := by
  by_cases hn : c.row.name = n
  · refine Good.one h.1 ?_
    obtain ⟨hp, hv⟩ := h
    rw [updW1_on _ _ _ _ hn]
    refine ⟨hp.mapWorkers ?_ ?_ ?_, hv.mapWorkers ?_ ?_ ?_⟩
    · intro y hy; split <;> rfl
    · intro y hy; split <;> exact id
    · intro y hy
      have hq := hp.ws y hy
      split
      · exact ⟨hq.tg, hq.fin, hq.clo, hq.tclo, hq.cfin, hq.ccl, hq.lfin, hq.lcre, hq.lop⟩
      · exact hq
    · intro _ y hy; split <;> exact id
    · intro _ _ _ y hy; split <;> exact id
    · intro y hy
      have hq := hv.ws y hy
      split
      · exact ⟨hq.flS, hq.flT, hq.nw3, hq.nw4, hq.nw5, hq.cT⟩
      · exact hq
  · exact Good.of_id h (by intro a ha; simp at ha; subst ha; exact updW1_off _ _ _ _ hn)

theorem endStopW_good {cfg : Cfg} {c : Cluster} (h : Inv cfg.bulk c) (now : Int) {w : Worker}
    (hw : w ∈ c.workers) (hs : w.vol.fl = .stopping) :
    Good cfg.bulk c (endStopWorkerActs cfg c w.row now) := by
  obtain ⟨hp, hv⟩ := h
  have hq' := hv.ws w hw
  obtain ⟨ht, hoff⟩ := hq'.flT hs
  obtain ⟨g, p, e⟩ := workerStopped_good ⟨hp, hv⟩ now hw (by rw [hs]; simp) ht (Or.inl hoff)
  refine Good.append g ?_
  have i := g.2
  rw [e] at i ⊢
  obtain ⟨ip, iv⟩ := i
  refine Good.one ip ?_
  have hm : ({ w with row := { w.row with status := w.row.target, stopTime := some now } } : Worker) ∈
      (c.onW w.row.name (fun y => { y with row := { y.row with status := w.row.target, stopTime := some now } })).workers :=
    mem_onW (g := fun y => { y with row := { y.row with status := w.row.target, stopTime := some now } }) hw rfl
  have e2 := volW_onW { c.onW w.row.name (fun y => { y with row := { y.row with status := w.row.target, stopTime := some now } }) with
        vol := { c.vol with pending := p } } w.row.name (fun v => { v with fl := .idle })
  have e2 : (Act.volW c.row.name w.row.name (fun v => { v with fl := .idle })).onCluster
      { c.onW w.row.name (fun y => { y with row := { y.row with status := w.row.target, stopTime := some now } }) with
        vol := { c.vol with pending := p } } = _ := e2
  rw [e2]
  have a1 := ip.ws _ hm
  have a2 := iv.ws _ hm
  refine ⟨ip.onW hm (fun w => { w with vol := { w.vol with fl := .idle } }) rfl id
      ⟨a1.tg, a1.fin, a1.clo, a1.tclo, a1.cfin, a1.ccl, a1.lfin, a1.lcre, fun e => ?_⟩,
    iv.onW ip.nodup hm (fun w => { w with vol := { w.vol with fl := .idle } }) (fun _ => id) (fun _ _ _ => id)
      ⟨fun e => by simp at e, fun e => by simp at e, fun _ e => ?_, a2.nw4, fun e => ?_, a2.cT⟩⟩
  · change wst cfg.bulk w.row.name c.vol.log = .starting at e
    rw [hoff] at e; simp at e
  · simp only at e; omega
  · simp only at e; omega

theorem endStartW_good {bulk : Bool} {c : Cluster} (h : Inv bulk c) (ok : Bool) {w : Worker}
    (hw : w ∈ c.workers) (hs : w.vol.fl = .starting) :
    Good bulk c (endStartWorkerActs c.row.name w.row.name ok) := by
  obtain ⟨hp, hv⟩ := h
  have hq := hp.ws w hw
  have hq' := hv.ws w hw
  have h13 := hq'.flS hs
  have nc : c.vol.fl ≠ .stopping := fun e => by have := hq'.cT e; omega
  have n3 : w.row.target.n = 3 ∨ w.row.target.n = 4 ∨ 5 ≤ w.row.target.n := by have := hq.tg; omega
  have ncs : c.row.status.n < 5 := Nat.lt_of_not_le (fun e => by have := hq.cfin e; omega)
  have nst : wst bulk w.row.name (.startedWorker w.row.name :: c.vol.log) ≠ .starting := by
    simp only [wst_startedWorker]
    split <;> simp_all
  -- the row
  have wp (t : JobStatus) (ht : t = w.row.target ∨ 5 ≤ t.n) (v : WVol) (hf : v.fl = .starting) :
      WP bulk c.row.status c.row.target c.vol.log { row := { w.row with status := .submitted, target := t }, vol := v } := by
    refine ⟨?_, fun e => by simp at e, fun e => by simp at e, ?_, fun e => absurd e (Nat.not_le.2 ncs), ?_,
      fun e => by simp at e, fun e => by simp at e, fun _ => hf⟩
    · rcases ht with rfl | ht
      · exact hq.tg
      · show 3 ≤ t.n; omega
    · intro e
      rcases ht with rfl | ht
      · exact hq.tclo e
      · simp only at e; omega
    · intro e
      rcases ht with rfl | ht
      · exact hq.ccl e
      · rw [closeTarget_n]; simp only; split <;> omega
  -- the log and the flag
  have wp' (t : JobStatus) (ht : t = w.row.target ∨ 5 ≤ t.n) (v : WVol) :
      WP bulk c.row.status c.row.target (.startedWorker w.row.name :: c.vol.log)
        { row := { w.row with status := .submitted, target := t }, vol := v } := by
    have := wp t ht { v with fl := .starting } rfl
    exact ⟨this.tg, this.fin, this.clo, this.tclo, this.cfin, this.ccl, fun e => by simp at e,
      fun e => by simp at e, fun e => absurd e nst⟩
  have wv (t : JobStatus) (b : Bool) (ht : t = w.row.target ∧ b = w.vol.pending ∨ 5 ≤ t.n ∧ b = true) :
      WV bulk c.vol.fl c.vol.log { row := { w.row with status := .submitted, target := t }, vol := { pending := b, fl := .idle } } := by
    refine ⟨fun e => by simp at e, fun e => by simp at e, fun a _ => ?_, fun a _ => ?_, fun e => by simp at e,
      fun e => absurd e nc⟩
    · rcases ht with ⟨rfl, rfl⟩ | ⟨_, rfl⟩
      · rcases hq'.nw3 a (by omega) with h | h
        · exact Or.inl h
        · rw [hs] at h; simp at h
      · exact Or.inl rfl
    · rcases ht with ⟨rfl, rfl⟩ | ⟨h5, rfl⟩
      · exact hq'.nw4 a (by omega)
      · rfl
  -- one composed change
  have fin (t : JobStatus) (b : Bool) (ht : t = w.row.target ∧ b = w.vol.pending ∨ 5 ≤ t.n ∧ b = true)
      (ht' : t = w.row.target ∨ 5 ≤ t.n) (v : CVol) (hf : ∃ hb fc, v = { c.vol with lastHb := hb, failCount := fc })
      (g : Worker → Worker) (hg : g w = { row := { w.row with status := .submitted, target := t }, vol := { pending := b, fl := .idle } }) :
      Inv bulk { c.onW w.row.name g with vol := CVol.addLog (.startedWorker w.row.name) v } := by
    obtain ⟨hb, fc, rfl⟩ := hf
    have v0 : CV bulk { c with vol := { c.vol with lastHb := hb, failCount := fc } } :=
      ⟨hv.flS, hv.flT, hv.nw1, hv.nw2, hv.nwS, hv.ready, hv.shut, hv.rt1, hv.rt2, hv.rt3, hv.rt4, hv.rt5, hv.sup, hv.ws⟩
    have p0 : CP bulk { c with vol := { c.vol with lastHb := hb, failCount := fc } } :=
      ⟨hp.tgt, hp.clo, hp.cnt, hp.stt, hp.sch, hp.nodup, hp.lfin, hp.sep, hp.lcre, hp.lnm, hp.ws⟩
    have v1 := v0.onW p0.nodup hw g (fun _ e => by
        rw [hg] at e; rw [closeTarget_n] at e; simp only [submitted_n] at e; split at e <;> omega)
      (fun _ _ _ _ => by rw [hg]; simp [Worker.supplies]) (by rw [hg]; exact wv t b ht)
    have hm : g w ∈ (Cluster.onW { c with vol := { c.vol with lastHb := hb, failCount := fc } } w.row.name g).workers :=
      mem_onW hw rfl
    have p1 : CP bulk (Cluster.onW { c with vol := { c.vol with lastHb := hb, failCount := fc } } w.row.name
        (fun y => { g y with vol := { (g y).vol with fl := .starting } })) := by
      refine p0.onW hw (fun y => { g y with vol := { (g y).vol with fl := .starting } }) (by simp [hg]) ?_ ?_
      · simp only [hg]
        intro e
        rw [wactive_iff] at e ⊢
        rcases ht' with rfl | h5
        · exact e
        · simp only at e; omega
      · simp only [hg]
        exact wp t ht' _ rfl
    have hm1 : { g w with vol := { (g w).vol with fl := .starting } } ∈ (Cluster.onW { c with vol := { c.vol with lastHb := hb, failCount := fc } } w.row.name
        (fun y => { g y with vol := { (g y).vol with fl := .starting } })).workers :=
      mem_onW (g := fun y => { g y with vol := { (g y).vol with fl := .starting } }) hw rfl
    have p2 := p1.logW hm1 (.startedWorker w.row.name) (Or.inr (Or.inl (by rw [hg])))
      (by rw [hg]; exact wp' t ht' _)
    have hm2 : { g w with vol := { (g w).vol with fl := .starting } } ∈ ({ Cluster.onW { c with vol := { c.vol with lastHb := hb, failCount := fc } } w.row.name
        (fun y => { g y with vol := { (g y).vol with fl := .starting } }) with vol := CVol.addLog (.startedWorker w.row.name) { c.vol with lastHb := hb, failCount := fc } } : Cluster).workers := hm1
    have p3 := CP.onW p2 hm2 (fun y => { y with vol := { y.vol with fl := .idle } }) rfl id
      (by rw [hg]; exact wp' t ht' _)
    have v2 := v1.logW (w := g w) (by
        have := p1.nodup
        simp only [Cluster.onW] at this ⊢
        rw [names_map] at this ⊢
        · exact hp.nodup
        · intro y hy
          split
          · rename_i e
            rw [name_inj hp.nodup hy hw e, hg]
          · rfl
        · intro y hy
          split
          · rename_i e
            rw [name_inj hp.nodup hy hw e, hg]
          · rfl) hm (.startedWorker w.row.name) (Or.inr (Or.inl (by rw [hg]))) (by
        have := wv t b ht
        rw [hg]
        exact ⟨this.flS, fun e => by simp at e, this.nw3, this.nw4, this.nw5, fun e => absurd e nc⟩)
    refine ⟨?_, v2⟩
    have : ({ c.onW w.row.name g with vol := CVol.addLog (.startedWorker w.row.name) { c.vol with lastHb := hb, failCount := fc } } : Cluster) =
      Cluster.onW { Cluster.onW { c with vol := { c.vol with lastHb := hb, failCount := fc } } w.row.name
        (fun y => { g y with vol := { (g y).vol with fl := .starting } }) with vol := CVol.addLog (.startedWorker w.row.name) { c.vol with lastHb := hb, failCount := fc } }
        { g w with vol := { (g w).vol with fl := .starting } }.row.name (fun y => { y with vol := { y.vol with fl := .idle } }) := by
      simp only [Cluster.onW, List.map_map, hg]
      congr 1
      apply List.map_congr_left
      intro y hy
      simp only [Function.comp]
      by_cases e : y.row.name = w.row.name
      · rw [name_inj hp.nodup hy hw e, hg]; simp
      · simp [e]
    rw [this]
    exact p3
  -- the points before the end
  have pre1 (t : JobStatus) (ht : t = w.row.target ∨ 5 ≤ t.n) (u : WVol) (hu : u.fl = .starting) (k : Nat)
      (g : Worker → Worker) (hg : g w = { row := { w.row with status := .submitted, target := t }, vol := u }) :
      CP bulk { c.onW w.row.name g with vol := { c.vol with failCount := k } } := by
    have p0 : CP bulk { c with vol := { c.vol with failCount := k } } :=
      ⟨hp.tgt, hp.clo, hp.cnt, hp.stt, hp.sch, hp.nodup, hp.lfin, hp.sep, hp.lcre, hp.lnm, hp.ws⟩
    refine p0.onW hw g (by rw [hg]) ?_ (by rw [hg]; exact wp t ht u hu)
    rw [hg]
    intro e
    rw [wactive_iff] at e ⊢
    rcases ht with rfl | h5
    · exact e
    · simp only at e; omega
  have pre2 (t : JobStatus) (ht : t = w.row.target ∨ 5 ≤ t.n) (u : WVol) (hu : u.fl = .starting) (k : Nat)
      (g : Worker → Worker) (hg : g w = { row := { w.row with status := .submitted, target := t }, vol := u }) :
      CP bulk { c.onW w.row.name g with
        vol := CVol.addLog (.startedWorker w.row.name) { c.vol with failCount := k } } := by
    have hm : g w ∈ ({ c.onW w.row.name g with vol := { c.vol with failCount := k } } : Cluster).workers := mem_onW hw rfl
    exact (pre1 t ht u hu k g hg).logW hm (.startedWorker w.row.name) (Or.inr (Or.inl (by rw [hg])))
      (by rw [hg]; exact wp' t ht u)
  cases ok with
  | true =>
    have e1 := updW1_onW c w.row.name { status := some .submitted }
    let g1 : Worker → Worker := fun y => { y with row := WUpd.app { status := some .submitted } y.row }
    have e2 : (Act.volC c.row.name (CVol.addLog (.startedWorker w.row.name))).onCluster (c.onW w.row.name g1) =
      { c.onW w.row.name g1 with vol := CVol.addLog (.startedWorker w.row.name) c.vol } := volC_on _ _ _ rfl
    have e3 : (Act.volW c.row.name w.row.name (fun v => { v with fl := .idle })).onCluster
        { c.onW w.row.name g1 with vol := CVol.addLog (.startedWorker w.row.name) c.vol } =
        { c.onW w.row.name (fun y => { g1 y with vol := { (g1 y).vol with fl := .idle } }) with
          vol := CVol.addLog (.startedWorker w.row.name) c.vol } := by
      have := volW_onW { c.onW w.row.name g1 with vol := CVol.addLog (.startedWorker w.row.name) c.vol }
        w.row.name (fun v => { v with fl := .idle })
      refine Eq.trans this ?_
      have := onW_onW c w.row.name g1 (fun y => { y with vol := { y.vol with fl := .idle } }) (fun _ => rfl)
      exact congrArg (fun d : Cluster => ({ d with vol := CVol.addLog (.startedWorker w.row.name) c.vol } : Cluster)) this
    have el : endStartWorkerActs c.row.name w.row.name true =
      [updW1 c.row.name w.row.name { status := some .submitted },
       .volC c.row.name (CVol.addLog (.startedWorker w.row.name)),
       .volW c.row.name w.row.name (fun v => { v with fl := .idle })] := rfl
    rw [el]
    have F := fin w.row.target w.vol.pending (Or.inl ⟨rfl, rfl⟩) (Or.inl rfl) c.vol
      ⟨c.vol.lastHb, c.vol.failCount, rfl⟩ (fun y => { g1 y with vol := { (g1 y).vol with fl := .idle } }) rfl
    constructor
    · refine ⟨hp, ?_⟩
      rw [e1]
      refine ⟨pre1 w.row.target (Or.inl rfl) w.vol hs c.vol.failCount g1 rfl, ?_⟩
      rw [e2]
      refine ⟨pre2 w.row.target (Or.inl rfl) w.vol hs c.vol.failCount g1 rfl, ?_⟩
      rw [e3]
      exact F.1
    · rw [onAll_cons, onAll_cons, onAll_cons, onAll_nil, e1, e2, e3]
      exact F
  | false =>
    let g1 : Worker → Worker := fun y => { y with row := WUpd.app { status := some .submitted, target := some .failed } y.row }
    let g2 : Worker → Worker := fun y => { g1 y with vol := { (g1 y).vol with pending := true } }
    let g3 : Worker → Worker := fun y => { g2 y with vol := { (g2 y).vol with fl := .idle } }
    let v1 : CVol := { c.vol with failCount := c.vol.failCount + 1 }
    have e1 : (updW1 c.row.name w.row.name { status := some .submitted, target := some .failed }).onCluster c =
      c.onW w.row.name g1 := updW1_onW _ _ _
    have e2 : (Act.volC c.row.name (fun v => { v with failCount := v.failCount + 1 })).onCluster (c.onW w.row.name g1) =
      { c.onW w.row.name g1 with vol := v1 } := volC_on _ _ _ rfl
    have e3 : (putWs c.row.name [w.row.name]).onCluster { c.onW w.row.name g1 with vol := v1 } =
      { c.onW w.row.name g2 with vol := v1 } := by
      refine Eq.trans (putWs_onW { c.onW w.row.name g1 with vol := v1 } w.row.name) ?_
      have := onW_onW c w.row.name g1 (fun y => { y with vol := { y.vol with pending := true } }) (fun _ => rfl)
      exact congrArg (fun d : Cluster => ({ d with vol := v1 } : Cluster)) this
    have e4 : (Act.volC c.row.name (CVol.addLog (.startedWorker w.row.name))).onCluster { c.onW w.row.name g2 with vol := v1 } =
      { c.onW w.row.name g2 with vol := CVol.addLog (.startedWorker w.row.name) v1 } := volC_on _ _ _ rfl
    have e5 : (Act.volW c.row.name w.row.name (fun v => { v with fl := .idle })).onCluster
        { c.onW w.row.name g2 with vol := CVol.addLog (.startedWorker w.row.name) v1 } =
        { c.onW w.row.name g3 with vol := CVol.addLog (.startedWorker w.row.name) v1 } := by
      refine Eq.trans (volW_onW { c.onW w.row.name g2 with vol := CVol.addLog (.startedWorker w.row.name) v1 }
        w.row.name (fun v => { v with fl := .idle })) ?_
      have := onW_onW c w.row.name g2 (fun y => { y with vol := { y.vol with fl := .idle } }) (fun _ => rfl)
      exact congrArg (fun d : Cluster => ({ d with vol := CVol.addLog (.startedWorker w.row.name) v1 } : Cluster)) this
    have el : endStartWorkerActs c.row.name w.row.name false =
      [updW1 c.row.name w.row.name { status := some .submitted, target := some .failed },
       .volC c.row.name (fun v => { v with failCount := v.failCount + 1 }), putWs c.row.name [w.row.name],
       .volC c.row.name (CVol.addLog (.startedWorker w.row.name)),
       .volW c.row.name w.row.name (fun v => { v with fl := .idle })] := rfl
    rw [el]
    have f5 : 5 ≤ JobStatus.failed.n := by simp
    have F := fin .failed true (Or.inr ⟨f5, rfl⟩) (Or.inr f5) v1 ⟨c.vol.lastHb, c.vol.failCount + 1, rfl⟩ g3 rfl
    constructor
    · refine ⟨hp, ?_⟩
      rw [e1]
      refine ⟨pre1 .failed (Or.inr f5) w.vol hs c.vol.failCount g1 rfl, ?_⟩
      rw [e2]
      refine ⟨pre1 .failed (Or.inr f5) w.vol hs (c.vol.failCount + 1) g1 rfl, ?_⟩
      rw [e3]
      refine ⟨pre1 .failed (Or.inr f5) { w.vol with pending := true } hs (c.vol.failCount + 1) g2 rfl, ?_⟩
      rw [e4]
      refine ⟨pre2 .failed (Or.inr f5) { w.vol with pending := true } hs (c.vol.failCount + 1) g2 rfl, ?_⟩
      rw [e5]
      exact F.1
    · rw [onAll_cons, onAll_cons, onAll_cons, onAll_cons, onAll_cons, onAll_nil, e1, e2, e3, e4, e5]
      exact F

end Verif.Backend
