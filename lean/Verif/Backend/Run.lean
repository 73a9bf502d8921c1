import Verif.Backend.Ops
/-
The invariant of the gateway, over histories with crashes at any micro-action.
-/
set_option linter.unusedSimpArgs false
set_option linter.unusedVariables false
namespace Verif.Backend

/-- A cluster that was removed: it was finished, and had no routes. -/
structure Gone (bulk : Bool) (c : Cluster) : Prop where
  cp : CP bulk c
  fin : 5 ≤ c.row.status.n
  sni : c.vol.sniRoute = none
  path : c.vol.pathRoute = none

/-- What holds between any two micro-actions. -/
structure SP (cfg : Cfg) (s : State) : Prop where
  synced : Synced s
  named : Named s
  cp : ∀ c ∈ s.clusters, CP cfg.bulk c
  gone : ∀ c ∈ s.purged, Gone cfg.bulk c

/-- What holds between any two operations. -/
structure SInv (cfg : Cfg) (s : State) : Prop where
  synced : Synced s
  named : Named s
  inv : ∀ c ∈ s.clusters, Inv cfg.bulk c
  gone : ∀ c ∈ s.purged, Gone cfg.bulk c

theorem SInv.sp {cfg : Cfg} {s : State} (h : SInv cfg s) : SP cfg s :=
  ⟨h.synced, h.named, fun c hc => (h.inv c hc).1, h.gone⟩

theorem sinv_init (cfg : Cfg) : SInv cfg State.init :=
  ⟨rfl, ⟨by simp [State.init], by simp [State.init], by simp [State.init], by simp [State.init]⟩,
    by simp [State.init], by simp [State.init]⟩

/-! ### Restart -/

/-- A cluster that is loaded again from what is stored. -/
def reload (now : Int) (c : Cluster) : Cluster := load now (.crash :: c.vol.log) c.entry

theorem restart_clusters {s : State} (hs : Synced s) (hn : Named s) (now : Int) :
    (s.restart now).clusters = s.clusters.map (reload now) := by
  unfold Synced at hs
  simp only [State.restart, hs, List.map_map]
  apply List.map_congr_left
  intro c hc
  simp only [Function.comp, reload]
  have : s.logOf c.row.name = c.vol.log := by
    simp [State.logOf, sfind_mem hn.nodup hc]
  simp only [Cluster.entry, this]

@[simp] theorem reload_row (now : Int) (c : Cluster) : (reload now c).row = c.row := rfl
@[simp] theorem reload_log (now : Int) (c : Cluster) : (reload now c).vol.log = .crash :: c.vol.log := rfl
theorem reload_workers (now : Int) (c : Cluster) : (reload now c).workers = c.workers.map (fun w =>
    { row := w.row, vol := { pending := decide (c.row.status.n < 5) && decide (w.row.status.n < 5), fl := .idle } }) := by
  simp only [reload, load, Cluster.entry, List.map_map]
  rfl
@[simp] theorem reload_names (now : Int) (c : Cluster) : names (reload now c).workers = names c.workers := by
  rw [reload_workers]; exact names_map (fun _ _ => rfl)
theorem reload_entry (now : Int) (c : Cluster) : (reload now c).entry = c.entry := by
  simp only [Cluster.entry, reload_workers, List.map_map, reload_row, Function.comp_def]

theorem reload_vol (now : Int) (c : Cluster) : (reload now c).vol =
    { lastHb := if c.row.status = .running then some now else none
      failCount := 0
      added := false
      ready := decide (3 ≤ c.row.status.n)
      shutdown := decide (5 ≤ c.row.status.n)
      pending := decide (c.row.status.n < 5)
      fl := .idle
      pathRoute := none
      sniRoute := none
      log := .crash :: c.vol.log } := rfl

@[simp] theorem wst_crash (bulk : Bool) (x : Nat) (l : List Ext) :
    wst bulk x (.crash :: l) = if wst bulk x l = .starting then .lost else wst bulk x l := rfl

theorem reload_inv {bulk : Bool} {c : Cluster} (h : CP bulk c) (now : Int) : Inv bulk (reload now c) := by
  have key (w') (hw' : w' ∈ (reload now c).workers) : ∃ w ∈ c.workers,
      w' = { row := w.row, vol := { pending := decide (c.row.status.n < 5) && decide (w.row.status.n < 5), fl := .idle } } := by
    rw [reload_workers] at hw'
    obtain ⟨w, hw, rfl⟩ := List.mem_map.1 hw'
    exact ⟨w, hw, rfl⟩
  constructor
  · refine ⟨h.tgt, h.clo, fun k hk => ?_, h.stt, h.sch, by rw [reload_names]; exact h.nodup, h.lfin, h.sep,
      fun e => by simp [startedSince] at e, ?_, ?_⟩
    · refine ⟨(h.cnt k hk).1, ?_⟩
      have := (h.cnt k hk).2
      simp only [Cluster.activeWorkers] at this ⊢
      rw [reload_workers]
      exact Nat.le_trans (filter_map_le (p := fun w => w.row.active) (fun _ _ => id)) this
    · intro x hx
      rw [reload_names]
      refine h.lnm x (fun e => hx ?_)
      simp [e]
    · intro w' hw'
      obtain ⟨w, hw, rfl⟩ := key w' hw'
      have hq := h.ws w hw
      refine ⟨hq.tg, hq.fin, hq.clo, hq.tclo, hq.cfin, hq.ccl, fun e => ?_, fun e => ?_, fun e => ?_⟩
      · rcases hq.lfin e with h | h <;> simp [h]
      · have := hq.lcre e
        simp only [reload_log, wst_crash]
        split
        · simp
        · exact this
      · simp only [reload_log, wst_crash] at e
        split at e
        · simp at e
        · contradiction
  · refine ⟨fun e => by simp [reload_vol] at e, fun e => by simp [reload_vol] at e, ?_, ?_, ?_, rfl, rfl,
      fun a e => by simp [reload_vol] at e, fun a e => by simp [reload_vol] at e, fun e => by simp [reload_vol] at e,
      fun e => by simp [reload_vol] at e, ?_, ?_, ?_⟩
    · intro _ e
      simp only [reload_row] at e
      simp only [reload_vol, decide_eq_true_iff]; omega
    · intro e _
      simp only [reload_row] at e
      simp only [reload_vol, decide_eq_true_iff]; omega
    · intro e _ _
      simp only [reload_row] at e
      simp only [reload_vol, decide_eq_true_iff]; omega
    · intro e _ e'
      simp only [reload_row] at e
      simp only [reload_vol, decide_eq_false_iff_not] at e'; omega
    · intro e _ e'
      simp only [reload_row] at e
      simp only [reload_vol, decide_eq_false_iff_not] at e'; omega
    · intro w' hw'
      obtain ⟨w, hw, rfl⟩ := key w' hw'
      have hq := h.ws w hw
      have pen (e : w.row.status.n < 5) : (decide (c.row.status.n < 5) && decide (w.row.status.n < 5)) = true := by
        have : c.row.status.n < 5 := Nat.lt_of_not_le (fun x => by have := hq.cfin x; omega)
        simp [e, this]
      refine ⟨fun e => by simp at e, fun e => by simp at e, fun _ e => Or.inl (pen e), fun _ e => pen (by simp only at e; omega),
        fun e _ _ => pen (by simp only at e; omega), fun e => by simp [reload_vol] at e⟩

theorem restart_inv {cfg : Cfg} {s : State} (h : SP cfg s) (now : Int) : SInv cfg (s.restart now) := by
  have e := restart_clusters h.synced h.named now
  refine ⟨?_, ⟨?_, ?_, h.named.purgedBound, ?_⟩, ?_, h.gone⟩
  · have := h.synced
    simp only [Synced] at this ⊢
    rw [e, List.map_map]
    refine Eq.trans this ?_
    exact List.map_congr_left (fun c _ => (reload_entry now c).symm)
  · rw [e, List.map_map]; exact h.named.nodup
  · rw [e]
    intro c hc
    obtain ⟨d, hd, rfl⟩ := List.mem_map.1 hc
    refine ⟨(h.named.bound d hd).1, ?_⟩
    rw [names_bound, reload_names, ← names_bound]
    exact (h.named.bound d hd).2
  · rw [e]
    intro c hc
    obtain ⟨d, hd, rfl⟩ := List.mem_map.1 hc
    exact h.named.disjoint d hd
  · rw [e]
    intro c hc
    obtain ⟨d, hd, rfl⟩ := List.mem_map.1 hc
    exact reload_inv (h.cp d hd) now

/-! ### Operations -/

/-- A new cluster. -/
def newCluster (n : Nat) (user : String) (mx : Option Nat) (now : Int) : Cluster :=
  { row := newRow n user mx now, vol := CVol.init .created now [], workers := [] }

theorem new_cp (bulk : Bool) (n : Nat) (user : String) (mx : Option Nat) (now : Int) :
    CP bulk (newCluster n user mx now) := by
  refine ⟨Or.inl rfl, fun e => by simp [newCluster, newRow] at e, fun k _ => ?_, by simp [newCluster, newRow],
    fun e => by simp [newCluster, newRow] at e, by simp [newCluster, names], fun e => by simp [newCluster, newRow] at e, rfl,
    fun e => by simp [newCluster, CVol.init, startedSince] at e, fun x e => by simp [newCluster, CVol.init, wst] at e,
    by simp [newCluster]⟩
  simp [newCluster, newRow, Cluster.activeWorkers]

theorem new_inv (bulk : Bool) (n : Nat) (user : String) (mx : Option Nat) (now : Int) :
    Inv bulk { newCluster n user mx now with vol := { (newCluster n user mx now).vol with pending := true } } := by
  refine ⟨(new_cp bulk n user mx now).setP true, ?_⟩
  refine ⟨fun e => by simp [newCluster, CVol.init] at e, fun e => by simp [newCluster, CVol.init] at e,
    fun _ _ => rfl, fun _ _ => Or.inl rfl, fun _ _ _ => rfl, rfl, rfl, fun a e => by simp [newCluster, CVol.init] at e,
    fun a e => by simp [newCluster, CVol.init] at e, fun e => by simp [newCluster, CVol.init] at e,
    fun e => by simp [newCluster, CVol.init] at e, fun _ _ e => by simp at e, fun _ _ e => by simp at e,
    by simp [newCluster]⟩

theorem applyAll_cons (s : State) (a : Act) (l : List Act) : s.applyAll (a :: l) = (s.apply a).applyAll l := rfl
@[simp] theorem applyAll_nil (s : State) : s.applyAll [] = s := rfl

theorem start_state {s : State} (hn : Named s) (user : String) (mx : Option Nat) (now : Int) :
    (s.apply (.newC (newRow s.next user mx now))).clusters = s.clusters ++ [newCluster s.next user mx now] ∧
    ((s.apply (.newC (newRow s.next user mx now))).apply (putC1 s.next)).clusters = s.clusters ++
      [{ newCluster s.next user mx now with vol := { (newCluster s.next user mx now).vol with pending := true } }] ∧
    ((s.apply (.newC (newRow s.next user mx now))).apply (putC1 s.next)).purged = s.purged ∧
    (s.apply (.newC (newRow s.next user mx now))).purged = s.purged := by
  have e1 : (s.apply (.newC (newRow s.next user mx now))).clusters = s.clusters ++ [newCluster s.next user mx now] := rfl
  refine ⟨e1, ?_, rfl, rfl⟩
  obtain ⟨p1, -⟩ := apply_plain (s.apply (.newC (newRow s.next user mx now))) (putC1 s.next) rfl
  rw [p1, e1, List.map_append]
  congr 1
  · refine map_id_of (fun c hc => putC1_off _ _ ?_)
    have := (hn.bound c hc).1
    omega
  · simp only [List.map_cons, List.map_nil]
    rw [putC1_on _ _ (by rfl)]

/-- The state in which the database and the memory agree, after the first `k` micro-actions. -/
theorem prefix_sp {cfg : Cfg} {s : State} (h : SInv cfg s) (o : Op) (k : Nat) :
    SP cfg (s.applyAll ((acts cfg s o).take k)) ∧
    (o.plain = true → (∀ a ∈ (acts cfg s o).take k, a.plain = true)) := by
  cases ho : o.plain
  · refine ⟨?_, by simp⟩
    cases o <;> simp [Op.plain] at ho
    case startCluster user mx now =>
      simp only [acts, startClusterActs]
      obtain ⟨e1, e2, e3, e4⟩ := start_state h.named user mx now
      have n1 := named_newC (r := newRow s.next user mx now) h.named rfl
      match k with
      | 0 => exact h.sp
      | 1 =>
        refine ⟨synced_applyAll _ _ h.synced, n1, ?_, h.gone⟩
        intro c hc
        have hc : c ∈ (s.apply (.newC (newRow s.next user mx now))).clusters := hc
        rw [e1] at hc
        rcases List.mem_append.1 hc with hc | hc
        · exact (h.inv c hc).1
        · simp at hc; subst hc; exact new_cp _ _ _ _ _
      | k + 2 =>
        have et : (([.newC (newRow s.next user mx now), putC1 s.next] : List Act).take (k + 2)) =
          [.newC (newRow s.next user mx now), putC1 s.next] := by simp
        rw [et]
        refine ⟨synced_applyAll _ _ h.synced, named_plain (a := putC1 s.next) n1 rfl (by simp [putC1]), ?_, h.gone⟩
        intro c hc
        have hc : c ∈ ((s.apply (.newC (newRow s.next user mx now))).apply (putC1 s.next)).clusters := hc
        rw [e2] at hc
        rcases List.mem_append.1 hc with hc | hc
        · exact (h.inv c hc).1
        · simp at hc; subst hc; exact (new_inv _ _ _ _ _).1
    case cleanup now =>
      simp only [acts, cleanupActs]
      match k with
      | 0 => exact h.sp
      | k + 1 =>
        have et : ∀ p : Nat → Bool, (([.purge p] : List Act).take (k + 1)) = [.purge p] := by simp
        rw [et]
        refine ⟨synced_applyAll _ _ h.synced, by rw [applyAll_cons, applyAll_nil]; exact named_purge h.named, ?_, ?_⟩
        · intro c hc
          exact (h.inv c (List.mem_filter.1 hc).1).1
        · intro c hc
          rcases List.mem_append.1 hc with hc | hc
          · exact h.gone c hc
          · obtain ⟨hc, hx⟩ := List.mem_filter.1 hc
            obtain ⟨hp, hv⟩ := h.inv c hc
            simp only [decide_eq_true_iff, List.mem_map] at hx
            obtain ⟨e, he, hen⟩ := hx
            obtain ⟨he, hex⟩ := List.mem_filter.1 he
            rw [h.synced] at he
            obtain ⟨d, hd, rfl⟩ := List.mem_map.1 he
            have := cname_inj h.named.nodup hd hc hen
            subst this
            have fin : 5 ≤ d.row.status.n := by
              rw [← hp.stt]
              simp only [expired, Cluster.entry] at hex
              split at hex
              · simp at hex
              · rename_i t e; simp [e]
            refine ⟨hp, fin, ?_, ?_⟩
            · cases e : d.vol.sniRoute with
              | none => rfl
              | some a => have := (hv.rt1 a e).1; omega
            · cases e : d.vol.pathRoute with
              | none => rfl
              | some a => have := (hv.rt2 a e).1; omega
  · have pl : ∀ a ∈ (acts cfg s o).take k, a.plain = true := by
      intro a ha
      by_cases hc : s.clusters = []
      · have : acts cfg s o = [] ∨ ∃ l, acts cfg s o = l ∧ Quiet l := by
          right
          refine ⟨_, rfl, ?_⟩
          have fn (n) : s.find n = none := by simp [State.find, hc]
          cases o <;> simp only [acts, fn] <;> first | exact Quiet.nil | skip
          case startCluster => simp [Op.plain] at ho
          case cleanup => simp [Op.plain] at ho
          case shutdown => exact .cons (quiet_updC _) (.cons (quiet_putC _) .nil)
          case checkTimeouts =>
            simp only [timeoutActs]
            exact .ite .nil (.cons (quiet_updC _) (.cons (quiet_putC _) (.cons (quiet_updW _) (.cons (quiet_putW _) .nil))))
          case checkClustersEnd =>
            split
            · exact .nil
            · exact .cons (quiet_updC _) (.cons (quiet_putC _) .nil)
          case checkWorkersEnd =>
            split
            · exact .nil
            · exact checkWorkers_quiet _ _
        rcases this with e | ⟨l, e, q⟩
        · rw [e] at ha; simp at ha
        · rw [e] at ha; exact (q a (List.mem_of_mem_take ha)).1
      · obtain ⟨d, hd⟩ := List.exists_mem_of_ne_nil _ hc
        exact (acts_good h.named h.inv o ho hd).2.1 a (List.mem_of_mem_take ha)
    refine ⟨?_, fun _ => pl⟩
    obtain ⟨e1, e2, -, -⟩ := applyAll_plain s _ pl
    refine ⟨synced_applyAll _ _ h.synced, ?_, ?_, ?_⟩
    · by_cases hc : s.clusters = []
      · refine ⟨by rw [e1, hc]; simp, by rw [e1, hc]; simp, ?_, by rw [e1, hc]; simp⟩
        rw [e2]
        have mono : ∀ (l : List Act) (t : State), t.next ≤ (t.applyAll l).next := by
          intro l
          induction l with
          | nil => intro t; exact Nat.le_refl _
          | cons a l ih =>
            intro t
            refine Nat.le_trans ?_ (ih (t.apply a))
            cases a <;> simp [State.apply]
        intro c hc
        exact Nat.lt_of_lt_of_le (h.named.purgedBound c hc) (mono _ _)
      · obtain ⟨d, hd⟩ := List.exists_mem_of_ne_nil _ hc
        exact named_applyAll h.named ((acts_good h.named h.inv o ho hd).2.2.take k _ _)
    · rw [e1]
      intro c hc
      obtain ⟨d, hd, rfl⟩ := List.mem_map.1 hc
      exact (acts_good h.named h.inv o ho hd).1.1.take k
    · rw [e2]; exact h.gone

theorem take_all {α : Type} (l : List α) : l.take l.length = l := List.take_length

theorem step_inv {cfg : Cfg} {s : State} (h : SInv cfg s) (o : Op) : SInv cfg (s.step cfg o) := by
  have hp := prefix_sp h o (acts cfg s o).length
  rw [take_all] at hp
  obtain ⟨sp, pl⟩ := hp
  refine ⟨sp.synced, ⟨sp.named.nodup, sp.named.bound, sp.named.purgedBound, sp.named.disjoint⟩, ?_, sp.gone⟩
  intro c hc
  have hc : c ∈ (s.applyAll (acts cfg s o)).clusters := hc
  cases ho : o.plain
  · cases o with
    | startCluster user mx now =>
      obtain ⟨e1, e2, e3, e4⟩ := start_state h.named user mx now
      have hc : c ∈ ((s.apply (.newC (newRow s.next user mx now))).apply (putC1 s.next)).clusters := hc
      rw [e2] at hc
      rcases List.mem_append.1 hc with hc | hc
      · exact h.inv c hc
      · simp at hc; subst hc; exact new_inv _ _ _ _ _
    | cleanup now => exact h.inv c (List.mem_filter.1 hc).1
    | _ => simp [Op.plain] at ho
  · obtain ⟨e1, -⟩ := applyAll_plain s _ (pl ho)
    rw [e1] at hc
    obtain ⟨d, hd, rfl⟩ := List.mem_map.1 hc
    exact (acts_good h.named h.inv o ho hd).1.2

theorem ev_inv {cfg : Cfg} {s : State} (h : SInv cfg s) (e : Ev) : SInv cfg (s.ev cfg e) := by
  cases e with
  | op o => exact step_inv h o
  | crash o k now => exact restart_inv (prefix_sp h o k).1 now

theorem run_inv (cfg : Cfg) (evs : List Ev) : SInv cfg (run cfg evs) := by
  unfold run
  have : ∀ s, SInv cfg s → SInv cfg (evs.foldl (State.ev cfg) s) := by
    induction evs with
    | nil => exact fun s h => h
    | cons e evs ih => exact fun s h => ih _ (ev_inv h e)
  exact this _ (sinv_init cfg)

end Verif.Backend
