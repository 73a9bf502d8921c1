import Verif.Backend.Run
/-
How a cluster can change over time: nothing is undone.
-/
set_option linter.unusedSimpArgs false
set_option linter.unusedVariables false
namespace Verif.Backend

/-- `d` is a later state of the worker `w`. -/
structure WLe (w d : Worker) : Prop where
  name : d.row.name = w.row.name
  tgt : 5 ≤ w.row.target.n → 5 ≤ d.row.target.n
  fin : 5 ≤ w.row.status.n → 5 ≤ d.row.status.n

/-- `d` is a later state of the cluster `c`. -/
structure Le (c d : Cluster) : Prop where
  name : d.row.name = c.row.name
  user : d.row.user = c.row.user
  mx : d.row.maxWorkers = c.row.maxWorkers
  sti : d.row.startTime = c.row.startTime
  st : c.row.status.n ≤ d.row.status.n
  fin : 5 ≤ c.row.status.n → d.row.status = c.row.status ∧ d.row.stopTime = c.row.stopTime
  tgt : 5 ≤ c.row.target.n → 5 ≤ d.row.target.n ∧ names d.workers = names c.workers
  ws : ∀ w ∈ c.workers, ∃ w' ∈ d.workers, WLe w w'
  log : ∃ new, d.vol.log = new ++ c.vol.log ∧ (5 ≤ c.row.target.n → .startCluster ∉ new) ∧
    ∀ w ∈ c.workers, 5 ≤ w.row.target.n → .startWorker w.row.name ∉ new

theorem WLe.refl (w : Worker) : WLe w w := ⟨rfl, id, id⟩
theorem WLe.trans {a b c : Worker} (h : WLe a b) (h' : WLe b c) : WLe a c :=
  ⟨h'.name.trans h.name, fun e => h'.tgt (h.tgt e), fun e => h'.fin (h.fin e)⟩

theorem Le.refl (c : Cluster) : Le c c :=
  ⟨rfl, rfl, rfl, rfl, Nat.le_refl _, fun _ => ⟨rfl, rfl⟩, fun e => ⟨e, rfl⟩, fun w hw => ⟨w, hw, .refl w⟩,
    [], rfl, by simp, by simp⟩

theorem Le.trans {a b c : Cluster} (h : Le a b) (h' : Le b c) : Le a c where
  name := h'.name.trans h.name
  user := h'.user.trans h.user
  mx := h'.mx.trans h.mx
  sti := h'.sti.trans h.sti
  st := Nat.le_trans h.st h'.st
  fin := fun e => by
    have h1 := h.fin e
    have h2 := h'.fin (by rw [h1.1]; exact e)
    exact ⟨h2.1.trans h1.1, h2.2.trans h1.2⟩
  tgt := fun e => ⟨(h'.tgt (h.tgt e).1).1, (h'.tgt (h.tgt e).1).2.trans (h.tgt e).2⟩
  ws := fun w hw => by
    obtain ⟨x, hx, l1⟩ := h.ws w hw
    obtain ⟨y, hy, l2⟩ := h'.ws x hx
    exact ⟨y, hy, l1.trans l2⟩
  log := by
    obtain ⟨n1, e1, s1, w1⟩ := h.log
    obtain ⟨n2, e2, s2, w2⟩ := h'.log
    refine ⟨n2 ++ n1, by rw [e2, e1, List.append_assoc], fun e => ?_, fun w hw e => ?_⟩
    · simp only [List.mem_append, not_or]
      exact ⟨s2 (h.tgt e).1, s1 e⟩
    · obtain ⟨x, hx, l1⟩ := h.ws w hw
      have := w2 x hx (l1.tgt e)
      rw [l1.name] at this
      simp only [List.mem_append, not_or]
      exact ⟨this, w1 w hw e⟩

/-- The micro-action undoes nothing of the cluster `c`. -/
def Act.safe (c : Cluster) : Act → Prop
  | .updC f => (∀ s, (f c.row.name).status = some s → c.row.status.n ≤ s.n ∧ c.row.status.n < 5) ∧
    (∀ t, (f c.row.name).target = some t → 5 ≤ t.n) ∧ ((f c.row.name).stopTime ≠ none → c.row.status.n < 5)
  | .updW f => ∀ w ∈ c.workers, (∀ s, (f c.row.name w.row.name).status = some s → 5 ≤ w.row.status.n → 5 ≤ s.n) ∧
    ∀ t, (f c.row.name w.row.name).target = some t → 5 ≤ w.row.target.n → 5 ≤ t.n
  | .newW n _ => n = c.row.name → c.row.target.n < 5
  | .volC n f => n = c.row.name → ∀ v, ∃ new, (f v).log = new ++ v.log ∧ (5 ≤ c.row.target.n → .startCluster ∉ new) ∧
    ∀ w ∈ c.workers, 5 ≤ w.row.target.n → .startWorker w.row.name ∉ new
  | _ => True

theorem le_map {c d : Cluster} (h : Le c d) (g : Worker → Worker)
    (hn : ∀ w ∈ d.workers, (g w).row.name = w.row.name)
    (hg : ∀ w ∈ c.workers, ∀ w' ∈ d.workers, WLe w w' → WLe w (g w')) :
    Le c { d with workers := d.workers.map g } := by
  refine ⟨h.name, h.user, h.mx, h.sti, h.st, h.fin, fun e => ⟨(h.tgt e).1, ?_⟩, fun w hw => ?_, h.log⟩
  · rw [names_map hn]; exact (h.tgt e).2
  · obtain ⟨x, hx, l⟩ := h.ws w hw
    exact ⟨g x, List.mem_map.2 ⟨x, hx, rfl⟩, hg w hw x hx l⟩

theorem le_act {c d : Cluster} (h : Le c d) (a : Act) (hs : a.safe c) : Le c (a.onCluster d) := by
  cases a with
  | updC f =>
    obtain ⟨s1, s2, s3⟩ := hs
    rw [← h.name] at s1 s2 s3
    simp only [Act.onCluster]
    refine ⟨h.name, h.user, h.mx, h.sti, ?_, fun e => ⟨?_, ?_⟩, fun e => ⟨?_, (h.tgt e).2⟩, h.ws, h.log⟩
    · simp only [CUpd.app]
      cases e : (f d.row.name).status with
      | none => exact h.st
      | some s => exact (s1 s e).1
    · simp only [CUpd.app]
      cases e' : (f d.row.name).status with
      | none => exact (h.fin e).1
      | some s => have := (s1 s e').2; omega
    · simp only [CUpd.app]
      cases e' : (f d.row.name).stopTime with
      | none => exact (h.fin e).2
      | some s => have := s3 (by rw [e']; simp); omega
    · simp only [CUpd.app]
      cases e' : (f d.row.name).target with
      | none => exact (h.tgt e).1
      | some s => exact s2 s e'
  | updW f =>
    rw [updW_on]
    refine le_map h _ (fun _ _ => rfl) (fun w hw w' hw' l => ?_)
    obtain ⟨a1, a2⟩ := hs w hw
    rw [← l.name, ← h.name] at a1 a2
    refine ⟨l.name, fun e => ?_, fun e => ?_⟩
    · simp only [WUpd.app]
      cases e' : (f d.row.name w'.row.name).target with
      | none => exact l.tgt e
      | some t => exact a2 t e' e
    · simp only [WUpd.app]
      cases e' : (f d.row.name w'.row.name).status with
      | none => exact l.fin e
      | some t => exact a1 t e' e
  | newC r => exact h
  | purge p => exact h
  | newW n r =>
    simp only [Act.onCluster]
    split
    · rename_i e
      have ht := hs (e.trans h.name)
      refine ⟨h.name, h.user, h.mx, h.sti, h.st, h.fin, fun e => by omega, fun w hw => ?_, h.log⟩
      obtain ⟨x, hx, l⟩ := h.ws w hw
      exact ⟨x, by simp [hx], l⟩
    · exact h
  | putC f =>
    simp only [Act.onCluster]
    split
    · exact ⟨h.name, h.user, h.mx, h.sti, h.st, h.fin, h.tgt, h.ws, h.log⟩
    · exact h
  | putW f =>
    rw [putW_on]
    refine le_map h _ (fun _ _ => by split <;> rfl) (fun w hw w' hw' l => ?_)
    split
    · exact ⟨l.name, l.tgt, l.fin⟩
    · exact l
  | volW n x f =>
    simp only [Act.onCluster]
    refine le_map h _ (fun _ _ => by simp) (fun w hw w' hw' l => ?_)
    simp only [Act.onWorker]
    split
    · exact ⟨l.name, l.tgt, l.fin⟩
    · exact l
  | volC n f =>
    simp only [Act.onCluster]
    split
    · rename_i e
      obtain ⟨new, e1, b1, b2⟩ := hs (e.trans h.name) d.vol
      obtain ⟨n0, e0, c1, c2⟩ := h.log
      refine ⟨h.name, h.user, h.mx, h.sti, h.st, h.fin, h.tgt, h.ws, new ++ n0, ?_, fun e => ?_, fun w hw e => ?_⟩
      · simp only [e1, e0, List.append_assoc]
      · simp only [List.mem_append, not_or]; exact ⟨b1 e, c1 e⟩
      · simp only [List.mem_append, not_or]; exact ⟨b2 w hw e, c2 w hw e⟩
    · exact h

/-- All micro-actions of the list are safe. -/
abbrev SafeL (c : Cluster) (l : List Act) : Prop := ∀ a ∈ l, a.safe c

theorem SafeL.nil (c : Cluster) : SafeL c [] := fun _ h => nomatch h
theorem SafeL.cons {c : Cluster} {a : Act} {l : List Act} (h : a.safe c) (h' : SafeL c l) : SafeL c (a :: l) := by
  intro b hb
  rcases List.mem_cons.1 hb with rfl | hb
  · exact h
  · exact h' b hb
theorem SafeL.append {c : Cluster} {l l' : List Act} (h : SafeL c l) (h' : SafeL c l') : SafeL c (l ++ l') := by
  intro b hb
  rcases List.mem_append.1 hb with hb | hb
  · exact h b hb
  · exact h' b hb
theorem SafeL.ite {c : Cluster} {p : Prop} [Decidable p] {l l' : List Act} (h : p → SafeL c l) (h' : ¬ p → SafeL c l') :
    SafeL c (if p then l else l') := by
  split
  · rename_i e; exact h e
  · rename_i e; exact h' e

theorem le_all {c : Cluster} {l : List Act} (h : SafeL c l) : ∀ {d}, Le c d → Le c (onAll d l) := by
  induction l with
  | nil => exact id
  | cons a l ih =>
    intro d hd
    exact ih (fun b hb => h b (by simp [hb])) (le_act hd a (h a (by simp)))

theorem SafeL.take {c : Cluster} {l : List Act} (h : SafeL c l) (k : Nat) : SafeL c (l.take k) :=
  fun a ha => h a (List.mem_of_mem_take ha)

/-! ### The micro-actions of the operations are safe -/

theorem safe_updC1 {c : Cluster} {u : CUpd} (n : Nat)
    (h1 : ∀ s, u.status = some s → c.row.status.n ≤ s.n ∧ c.row.status.n < 5)
    (h2 : ∀ t, u.target = some t → 5 ≤ t.n) (h3 : u.stopTime ≠ none → c.row.status.n < 5) :
    (updC1 n u).safe c := by
  simp only [updC1, Act.safe]
  split
  · exact ⟨h1, h2, h3⟩
  · exact ⟨by simp, by simp, by simp⟩

theorem safe_target {c : Cluster} (f : Nat → CUpd) (h : f c.row.name = {} ∨ ∃ t : JobStatus, 5 ≤ t.n ∧ f c.row.name = { target := some t }) :
    (Act.updC f).safe c := by
  simp only [Act.safe]
  rcases h with e | ⟨t, ht, e⟩
  · rw [e]; exact ⟨by simp, by simp, by simp⟩
  · rw [e]; refine ⟨by simp, fun x hx => ?_, by simp⟩
    simp at hx; subst hx; exact ht

theorem safe_updWs {c : Cluster} {u : WUpd} (n : Nat) (ws : List Nat)
    (h : ∀ w ∈ c.workers, w.row.name ∈ ws → (∀ s, u.status = some s → 5 ≤ w.row.status.n → 5 ≤ s.n) ∧
      ∀ t, u.target = some t → 5 ≤ w.row.target.n → 5 ≤ t.n) : (updWs n ws u).safe c := by
  simp only [updWs, Act.safe]
  intro w hw
  split
  · rename_i e; exact h w hw e.2
  · exact ⟨by simp, by simp⟩

theorem safe_updW1 {c : Cluster} {u : WUpd} (n x : Nat)
    (h : ∀ w ∈ c.workers, w.row.name = x → (∀ s, u.status = some s → 5 ≤ w.row.status.n → 5 ≤ s.n) ∧
      ∀ t, u.target = some t → 5 ≤ w.row.target.n → 5 ≤ t.n) : (updW1 n x u).safe c := by
  simp only [updW1, Act.safe]
  intro w hw
  split
  · rename_i e; exact h w hw e.2
  · exact ⟨by simp, by simp⟩

theorem safe_putC1 (c : Cluster) (n : Nat) : (putC1 n).safe c := trivial
theorem safe_putWs (c : Cluster) (n : Nat) (ws : List Nat) : (putWs n ws).safe c := trivial
theorem safe_volW (c : Cluster) (n w : Nat) (f : WVol → WVol) : (Act.volW n w f).safe c := trivial
theorem safe_vol (c : Cluster) (n : Nat) (f : CVol → CVol) (h : ∀ v, (f v).log = v.log) : (Act.volC n f).safe c :=
  fun _ v => ⟨[], by simp [h], by simp, by simp⟩
theorem safe_log (c : Cluster) (n : Nat) (f : CVol → CVol) (e : Ext) (h : ∀ v, (f v).log = e :: v.log)
    (h1 : 5 ≤ c.row.target.n → e ≠ .startCluster)
    (h2 : ∀ w ∈ c.workers, 5 ≤ w.row.target.n → e ≠ .startWorker w.row.name) : (Act.volC n f).safe c :=
  fun _ v => ⟨[e], by simp [h], fun a => by simpa using (h1 a).symm, fun w hw a => by simpa using (h2 w hw a).symm⟩

theorem stop_safe (c : Cluster) (f : Bool) : SafeL c (stopClusterActs c f) :=
  .ite (fun _ => .cons (safe_updC1 _ (by simp) (by cases f <;> simp) (by simp)) (.cons (safe_putC1 _ _) (.nil _)))
    (fun _ => .nil _)

theorem hb_safe {c : Cluster} (hp : (names c.workers).Nodup) (m : Msg) (now : Int) : SafeL c (heartbeatActs c m now) := by
  simp only [heartbeatActs]
  refine .ite (fun _ => .nil _) (fun _ => .append (.cons (safe_vol _ _ _ (fun _ => rfl)) (.nil _)) (.ite (fun _ => .nil _)
    (fun _ => .append (.append (.append ?_ ?_) ?_) (.cons (safe_updWs _ _ (by simp)) (.nil _)))))
  · split
    · exact .nil _
    · rename_i u e
      refine .cons (safe_updC1 _ ?_ ?_ ?_) (.cons (safe_putC1 _ _) (.nil _)) <;>
      · simp only [hbClusterUpdate] at e
        split at e
        · split at e
          · simp at e
          · simp at e; subst e; simp
        · simp at e; subst e; simp
  · refine .cons ?_ (.cons (safe_putWs _ _ _) (.nil _))
    simp only [Act.safe]
    intro w hw
    simp only [if_true, hbTarget]
    split
    · exact ⟨by simp, by simp⟩
    · split
      · exact ⟨by simp, by simp⟩
      · exact ⟨by simp, by simp⟩
  · refine .ite (fun _ => .nil _) (fun _ => .cons (safe_vol _ _ _ (fun _ => rfl)) (.cons (safe_updWs _ _ ?_) (.nil _)))
    intro w hw hx
    refine ⟨fun _ _ e => ?_, by simp⟩
    simp only [hbNewlyRunning, names, List.mem_map, List.mem_filter] at hx
    obtain ⟨y, ⟨hy, hlt⟩, en⟩ := hx
    have hy' : y ∈ c.workers := by
      rcases List.mem_append.1 hy with h | h <;> exact (List.mem_filter.1 h).1
    rw [name_inj hp hy' hw en, decide_eq_true_iff, running_n] at hlt
    omega

theorem closing_safe {cfg : Cfg} {c : Cluster} (h4 : c.row.status.n < 4) (hp : (names c.workers).Nodup) :
    SafeL c (toClosingActs cfg c) := by
  simp only [toClosingActs]
  refine .append (.append (.cons (safe_updWs _ _ ?_) (.cons (safe_putWs _ _ _) (.cons (safe_updC1 _ ?_ (by simp) (by simp)) (.nil _))))
    (.ite (fun _ => .cons (safe_putC1 _ _) (.nil _)) (fun _ => .nil _))) (.cons (safe_vol _ _ _ (fun _ => rfl)) (.nil _))
  · intro w hw hx
    refine ⟨by simp, ?_⟩
    rw [mem_names_filter hp hw] at hx
    simp only [decide_eq_true_iff, closeTarget_n] at hx
    intro t _ ht
    split at hx <;> omega
  · intro s e
    simp at e; subst e
    simp; omega

theorem stopped_safe {c : Cluster} (h5 : c.row.status.n < 5) (ht : 5 ≤ c.row.target.n) (hp : (names c.workers).Nodup) (now : Int) :
    SafeL c (stoppedActs c now) := by
  simp only [stoppedActs]
  refine .cons (safe_updWs _ _ ?_) (.cons (safe_updC1 _ ?_ (by simp) (fun _ => h5)) (.cons (safe_vol _ _ _ (fun _ => rfl)) (.nil _)))
  · intro w hw hx
    rw [mem_names_filter hp hw, decide_eq_true_iff, stopped_n] at hx
    refine ⟨fun _ _ e => by omega, ?_⟩
    intro t e _
    simp at e; subst e; simp
  · intro s e
    simp at e; subst e
    exact ⟨by omega, h5⟩

theorem create_safe {c : Cluster} (ht : c.row.target.n < 5) (n : Nat) (now : Int) (k : Nat) :
    ∀ next, SafeL c (createWorkers n next now k) := by
  induction k with
  | zero => exact fun _ => .nil _
  | succ k ih => exact fun next => .cons (fun _ => ht) (.cons (safe_putWs _ _ _) (ih _))

theorem scale_safe {c : Cluster} (ht : c.row.target.n < 5) (cfg : Cfg) (next : Nat) (now : Int) :
    SafeL c (checkScaleActs cfg next c now) :=
  .ite (fun _ => .cons (safe_updC1 _ (by simp) (by simp) (by simp)) (.cons (safe_putC1 _ _) (.nil _)))
    (fun _ => create_safe ht _ _ _ _)

theorem reconcileC_safe {cfg : Cfg} {c : Cluster} (h : CP cfg.bulk c) (next : Nat) (now : Int) :
    SafeL c (reconcileClusterActs cfg next c now) := by
  simp only [reconcileClusterActs]
  refine .ite (fun _ => .nil _) (fun h5 => .ite (fun ht => .ite (fun h4 => .ite (fun _ => .ite (fun _ => ?_) (fun _ => ?_))
    (fun _ => .nil _)) (fun h4 => ?_)) (fun ht => .ite (fun ht' => .ite (fun _ => ?_) (fun h1 => .append (.ite (fun hu => ?_) (fun _ => .nil _))
      (.ite (fun _ => .append (.cons (safe_vol _ _ _ ?_) (.nil _)) (scale_safe ?_ _ _ _)) (fun _ => .nil _)))) (fun _ => .nil _)))
  · exact .cons (safe_log _ _ _ .stopCluster (fun _ => rfl) (by simp) (by simp)) (.nil _)
  · exact stopped_safe (Nat.lt_of_not_le h5) (n_ge5.2 ht) h.nodup now
  · refine closing_safe ?_ h.nodup
    rw [n_eq4] at h4
    have : ¬ 5 ≤ c.row.status.n := h5
    omega
  · rw [n_eq3] at ht'
    refine .cons (safe_log _ _ _ .startCluster (fun _ => rfl) (fun e => by omega) (by simp)) (.nil _)
  · simp only [Bool.and_eq_true, decide_eq_true_iff] at hu
    have h2 := n_eq2.1 hu.1
    refine .cons (safe_updC1 _ ?_ (by simp) (by simp)) (.cons (safe_vol _ _ _ (fun _ => rfl)) (.nil _))
    intro s e
    simp at e; subst e
    simp; omega
  · intro v
    simp only [proxied]
    split <;> rfl
  · rw [n_eq3] at ht'; omega

theorem wstopped_safe {cfg : Cfg} {c : Cluster} {w : Worker} (hw : w ∈ c.workers) (hp : (names c.workers).Nodup)
    (h5 : 5 ≤ w.row.target.n) (now : Int) : SafeL c (workerStoppedActs cfg c w.row now) := by
  refine .append (.cons (safe_updW1 _ _ ?_) (.nil _)) (.ite (fun _ => .cons (safe_putC1 _ _) (.nil _)) (fun _ => .nil _))
  intro y hy e
  refine ⟨?_, by simp⟩
  intro s e' _
  simp at e'; subst e'; exact h5

theorem reconcileW_safe {cfg : Cfg} {c : Cluster} {w : Worker} (hw : w ∈ c.workers) (hp : (names c.workers).Nodup) (now : Int) :
    SafeL c (reconcileWorkerActs cfg c w.row now) := by
  simp only [reconcileWorkerActs]
  refine .ite (fun _ => .nil _) (fun h5 => ?_)
  have h5 : w.row.status.n < 5 := Nat.lt_of_not_le h5
  refine .ite (fun _ => .append (.ite (fun _ => .nil _) (fun _ => .cons (safe_updW1 _ _ ?_) (.nil _)))
      (.ite (fun _ => .cons (safe_putC1 _ _) (.nil _)) (fun _ => .nil _)))
    (fun _ => .ite (fun ht5 => .ite (fun _ => .cons (safe_volW _ _ _ _) (.cons (safe_log _ _ _ _ (fun _ => rfl) (by simp) (by simp)) (.nil _)))
      (fun _ => wstopped_safe hw hp (n_ge5.2 ht5) now))
      (fun _ => .ite (fun ht => .cons (safe_volW _ _ _ _) (.cons (safe_log _ _ _ _ (fun _ => rfl) (by simp) ?_) (.nil _))) (fun _ => .nil _)))
  · intro y hy e
    rw [name_inj hp hy hw e]
    exact ⟨fun _ _ e => by omega, by simp⟩
  · intro y hy ht5 e
    simp only [Ext.startWorker.injEq] at e
    rw [name_inj hp hy hw e.symm] at ht5
    have := n_eq3.1 ht.2
    omega

theorem endStartC_safe {c : Cluster} (h1 : c.row.status.n = 1) (n : Nat) (ok : Bool) : SafeL c (endStartClusterActs n ok) := by
  refine .append (.ite (fun _ => .cons (safe_updC1 _ ?_ (by simp) (by simp)) (.nil _))
    (fun _ => .cons (safe_updC1 _ ?_ (by simp) (by simp)) (.cons (safe_putC1 _ _) (.nil _))))
    (.cons (safe_log _ _ _ .startedCluster (fun _ => rfl) (by simp) (by simp)) (.nil _)) <;>
  · intro s e
    simp at e; subst e
    simp; omega

theorem endStopC_safe {bulk : Bool} {c : Cluster} (h : Inv bulk c) (hf : c.vol.fl = .stopping) (now : Int) :
    SafeL c (endStopClusterActs c now) := by
  have h4 := (h.2.flT hf).1
  exact .append (.append (.cons (safe_vol _ _ _ (fun _ => rfl)) (.nil _)) (stopped_safe (by omega) (h.1.clo (by omega)) h.1.nodup now))
    (.cons (safe_vol _ _ _ (fun _ => rfl)) (.nil _))

theorem endStartW_safe {c : Cluster} {w : Worker} (hw : w ∈ c.workers) (hp : (names c.workers).Nodup)
    (h5 : w.row.status.n < 5) (n : Nat) (ok : Bool) : SafeL c (endStartWorkerActs n w.row.name ok) := by
  refine .append (.ite (fun _ => .cons (safe_updW1 _ _ ?_) (.nil _))
    (fun _ => .cons (safe_updW1 _ _ ?_) (.cons (safe_vol _ _ _ (fun _ => rfl)) (.cons (safe_putWs _ _ _) (.nil _)))))
    (.cons (safe_log _ _ _ _ (fun _ => rfl) (by simp) (by simp)) (.cons (safe_volW _ _ _ _) (.nil _))) <;>
  · intro y hy e
    rw [name_inj hp hy hw e]
    refine ⟨fun _ _ e => by omega, ?_⟩
    simp
    try (rintro t rfl; simp)

theorem acts_le {cfg : Cfg} {s : State} (hn : Named s) (hi : ∀ c ∈ s.clusters, Inv cfg.bulk c) (o : Op)
    (ho : o.plain = true) {d : Cluster} (hd : d ∈ s.clusters) (k : Nat) : Le d (onAll d ((acts cfg s o).take k)) := by
  have I := hi d hd
  have nil : Le d (onAll d (([] : List Act).take k)) := by rw [List.take_nil]; exact .refl d
  have glob {l : List Act} (h : SafeL d l) : Le d (onAll d (l.take k)) := le_all (h.take k) (.refl d)
  have loc {n : Nat} {c : Cluster} (hc : s.find n = some c) {l : List Act} (hl : Local n l)
      (h : c = d → SafeL d l) : Le d (onAll d (l.take k)) := by
    by_cases e : d.row.name = n
    · obtain ⟨hm, e'⟩ := sfind_spec hc
      exact glob (h (cname_inj hn.nodup hm hd (e'.trans e.symm)))
    · rw [onAll_id (fun a ha => (hl a (List.mem_of_mem_take ha)).2 d e)]
      exact .refl d
  cases o with
  | startCluster u m n => simp [Op.plain] at ho
  | cleanup n => simp [Op.plain] at ho
  | checkClusters => exact nil
  | checkWorkers => exact nil
  | stopCluster n f =>
    simp only [acts]
    split
    · exact nil
    · rename_i c hc
      obtain ⟨hm, rfl⟩ := sfind_spec hc
      exact loc hc (stop_local c f) (by rintro rfl; exact stop_safe c f)
  | heartbeat n m now =>
    simp only [acts]
    split
    · exact nil
    · rename_i c hc
      obtain ⟨hm, rfl⟩ := sfind_spec hc
      exact loc hc (hb_local c m now) (by rintro rfl; exact hb_safe I.1.nodup m now)
  | shutdown =>
    simp only [acts, shutdownActs]
    refine glob (.cons (safe_target _ ?_) (.cons trivial (.nil _)))
    by_cases hx : d.row.name ∈ (s.clusters.filter (fun c => c.row.active)).map (fun c => c.row.name)
    · right; exact ⟨.failed, by simp, if_pos hx⟩
    · left; exact if_neg hx
  | checkTimeouts now =>
    simp only [acts, timeoutActs]
    refine glob (.ite (fun _ => .nil _) (fun _ => .cons (safe_target _ ?_) (.cons trivial (.cons ?_ (.cons trivial (.nil _))))))
    · by_cases hx : d.row.name ∈ (s.clusters.filter (fun c => timeoutCluster cfg now c = .fail)).map (fun c => c.row.name)
      · right; exact ⟨.failed, by simp, if_pos hx⟩
      · left; exact if_neg hx
    · simp only [Act.safe]
      intro w hw
      split
      · exact ⟨by simp, by simp⟩
      · exact ⟨by simp, by simp⟩
  | checkClustersEnd sts =>
    simp only [acts]
    split
    · exact nil
    · rename_i l hl
      simp only [checkClustersActs]
      refine glob (.cons (safe_target _ ?_) (.cons trivial (.nil _)))
      by_cases hx : d.row.name ∈ bad l sts
      · right; exact ⟨.failed, by simp, if_pos hx⟩
      · left; exact if_neg hx
  | checkWorkersEnd sts =>
    simp only [acts]
    split
    · exact nil
    · rename_i l hl
      simp only [checkWorkersActs]
      refine glob (.append (.append (.cons ?_ (.nil _)) ?_) (.cons trivial (.nil _)))
      · simp only [Act.safe]
        intro w hw
        split
        · exact ⟨by simp, by simp⟩
        · exact ⟨by simp, by simp⟩
      · intro a ha
        obtain ⟨p, -, rfl⟩ := List.mem_map.1 ha
        exact safe_vol _ _ _ (fun _ => rfl)
  | getC n now =>
    simp only [acts]
    split
    · exact nil
    · rename_i c hc
      obtain ⟨hm, rfl⟩ := sfind_spec hc
      split
      · exact loc hc (.cons (about_volC _ _) (reconcileC_local cfg s.next c now))
          (by rintro rfl; exact .cons (safe_vol _ _ _ (fun _ => rfl)) (reconcileC_safe I.1 s.next now))
      · exact nil
  | getW n w now =>
    simp only [acts]
    split
    · exact nil
    · rename_i c hc
      obtain ⟨hm, rfl⟩ := sfind_spec hc
      split
      · exact nil
      · rename_i x hx
        obtain ⟨hxm, rfl⟩ := find_spec hx
        split
        · exact loc hc (.cons (about_volW _ _ _) (reconcileW_local cfg c x.row now))
            (by rintro rfl; exact .cons (safe_volW _ _ _ _) (reconcileW_safe hxm I.1.nodup now))
        · exact nil
  | yieldC n st =>
    simp only [acts]
    split
    · exact nil
    · rename_i c hc
      split
      · exact loc hc (.cons (about_updC1 _ _) (.nil _)) (fun _ => .cons (safe_updC1 _ (by simp) (by simp) (by simp)) (.nil _))
      · exact nil
  | yieldW n w st =>
    simp only [acts]
    split
    · exact nil
    · rename_i c hc
      split
      · exact nil
      · split
        · exact loc hc (.cons (about_updW1 _ _ _) (.nil _)) (fun _ => .cons (safe_updW1 _ _ (by simp)) (.nil _))
        · exact nil
  | endStartC n ok =>
    simp only [acts]
    split
    · exact nil
    · rename_i c hc
      split
      · rename_i h
        exact loc hc (endStartC_local _ ok) (by rintro rfl; exact endStartC_safe (I.2.flS h) _ ok)
      · exact nil
  | endStopC n now =>
    simp only [acts]
    split
    · exact nil
    · rename_i c hc
      obtain ⟨hm, rfl⟩ := sfind_spec hc
      split
      · rename_i h
        exact loc hc (endStopC_local c now) (by rintro rfl; exact endStopC_safe I h now)
      · exact nil
  | endStartW n w ok =>
    simp only [acts]
    split
    · exact nil
    · rename_i c hc
      split
      · exact nil
      · rename_i x hx
        obtain ⟨hxm, rfl⟩ := find_spec hx
        split
        · rename_i h
          refine loc hc (endStartW_local _ _ ok) (by
            rintro rfl
            have := (I.2.ws x hxm).flS h
            exact endStartW_safe hxm I.1.nodup (by omega) _ ok)
        · exact nil
  | endStopW n w now =>
    simp only [acts]
    split
    · exact nil
    · rename_i c hc
      obtain ⟨hm, rfl⟩ := sfind_spec hc
      split
      · exact nil
      · rename_i x hx
        obtain ⟨hxm, rfl⟩ := find_spec hx
        split
        · rename_i h
          refine loc hc (endStopW_local cfg c x.row now) (by
            rintro rfl
            refine .append (wstopped_safe hxm I.1.nodup ((I.2.ws x hxm).flT h).1 now) (.cons (safe_volW _ _ _ _) (.nil _)))
        · exact nil

theorem reload_le (now : Int) (c : Cluster) : Le c (reload now c) := by
  refine ⟨rfl, rfl, rfl, rfl, Nat.le_refl _, fun _ => ⟨rfl, rfl⟩, fun e => ⟨e, reload_names now c⟩, fun w hw => ?_,
    [.crash], rfl, by simp, by simp⟩
  rw [reload_workers]
  exact ⟨_, List.mem_map.2 ⟨w, hw, rfl⟩, ⟨rfl, id, id⟩⟩

/-! ### Histories -/

/-- After one event every known cluster is known still, or was removed, in a later state; removed clusters
stay as they are. -/
theorem prefix_le {cfg : Cfg} {s : State} (h : SInv cfg s) (o : Op) (k : Nat) :
    (∀ c ∈ s.clusters, ∃ d, (d ∈ (s.applyAll ((acts cfg s o).take k)).clusters ∨
      d ∈ (s.applyAll ((acts cfg s o).take k)).purged) ∧ Le c d) ∧
    (∀ c ∈ s.purged, c ∈ (s.applyAll ((acts cfg s o).take k)).purged) := by
  have id (hk : (acts cfg s o).take k = []) :
    (∀ c ∈ s.clusters, ∃ d, (d ∈ (s.applyAll ((acts cfg s o).take k)).clusters ∨
      d ∈ (s.applyAll ((acts cfg s o).take k)).purged) ∧ Le c d) ∧
    (∀ c ∈ s.purged, c ∈ (s.applyAll ((acts cfg s o).take k)).purged) := by
    rw [hk]
    exact ⟨fun c hc => ⟨c, Or.inl hc, .refl c⟩, fun c hc => hc⟩
  cases ho : o.plain
  · cases o with
    | startCluster user mx now =>
      obtain ⟨e1, e2, e3, e4⟩ := start_state h.named user mx now
      match k with
      | 0 => exact id rfl
      | 1 =>
        refine ⟨fun c hc => ⟨c, Or.inl ?_, .refl c⟩, fun c hc => hc⟩
        show c ∈ (s.apply (.newC (newRow s.next user mx now))).clusters
        rw [e1]; simp [hc]
      | k + 2 =>
        have et : (acts cfg s (.startCluster user mx now)).take (k + 2) =
          [.newC (newRow s.next user mx now), putC1 s.next] := by simp [acts, startClusterActs]
        rw [et]
        refine ⟨fun c hc => ⟨c, Or.inl ?_, .refl c⟩, fun c hc => hc⟩
        show c ∈ ((s.apply (.newC (newRow s.next user mx now))).apply (putC1 s.next)).clusters
        rw [e2]; simp [hc]
    | cleanup now =>
      match k with
      | 0 => exact id rfl
      | k + 1 =>
        have et : (acts cfg s (.cleanup now)).take (k + 1) = cleanupActs cfg s now := by simp [acts, cleanupActs]
        rw [et]
        simp only [cleanupActs, applyAll_cons, applyAll_nil, State.apply]
        refine ⟨fun c hc => ⟨c, ?_, .refl c⟩, fun c hc => List.mem_append.2 (Or.inl hc)⟩
        cases e : decide (c.row.name ∈ (s.db.filter (fun e => expired cfg now e.1)).map (fun e => e.1.name))
        · exact Or.inl (List.mem_filter.2 ⟨hc, by rw [e]; rfl⟩)
        · exact Or.inr (List.mem_append.2 (Or.inr (List.mem_filter.2 ⟨hc, e⟩)))
    | _ => simp [Op.plain] at ho
  · obtain ⟨e1, e2, -⟩ := applyAll_plain s _ ((prefix_sp h o k).2 ho)
    rw [e1, e2]
    refine ⟨fun c hc => ⟨_, Or.inl (List.mem_map.2 ⟨c, hc, rfl⟩), acts_le h.named h.inv o ho hc k⟩, fun c hc => hc⟩

theorem ev_le {cfg : Cfg} {s : State} (h : SInv cfg s) (e : Ev) :
    (∀ c ∈ s.clusters, ∃ d, (d ∈ (s.ev cfg e).clusters ∨ d ∈ (s.ev cfg e).purged) ∧ Le c d) ∧
    (∀ c ∈ s.purged, c ∈ (s.ev cfg e).purged) := by
  cases e with
  | op o =>
    have := prefix_le h o (acts cfg s o).length
    rw [take_all] at this
    exact this
  | crash o k now =>
    obtain ⟨h1, h2⟩ := prefix_le h o k
    have sp := (prefix_sp h o k).1
    refine ⟨fun c hc => ?_, h2⟩
    obtain ⟨d, hd, l⟩ := h1 c hc
    rcases hd with hd | hd
    · refine ⟨reload now d, Or.inl ?_, l.trans (reload_le now d)⟩
      simp only [State.ev]
      rw [restart_clusters sp.synced sp.named now]
      exact List.mem_map.2 ⟨d, hd, rfl⟩
    · exact ⟨d, Or.inr hd, l⟩

/-- The state after a further history. -/
theorem run_append (cfg : Cfg) (evs evs' : List Ev) :
    run cfg (evs ++ evs') = evs'.foldl (State.ev cfg) (run cfg evs) := by simp [run]

theorem fold_le {cfg : Cfg} (evs : List Ev) : ∀ {s : State}, SInv cfg s →
    SInv cfg (evs.foldl (State.ev cfg) s) ∧
    (∀ c ∈ s.clusters, ∃ d, (d ∈ (evs.foldl (State.ev cfg) s).clusters ∨ d ∈ (evs.foldl (State.ev cfg) s).purged) ∧ Le c d) ∧
    (∀ c ∈ s.purged, c ∈ (evs.foldl (State.ev cfg) s).purged) := by
  induction evs with
  | nil => exact fun h => ⟨h, fun c hc => ⟨c, Or.inl hc, .refl c⟩, fun c hc => hc⟩
  | cons e evs ih =>
    intro s h
    obtain ⟨h1, h2⟩ := ev_le h e
    obtain ⟨i1, i2, i3⟩ := ih (ev_inv h e)
    refine ⟨i1, fun c hc => ?_, fun c hc => i3 c (h2 c hc)⟩
    obtain ⟨d, hd, l⟩ := h1 c hc
    rcases hd with hd | hd
    · obtain ⟨x, hx, l'⟩ := i2 d hd
      exact ⟨x, hx, l.trans l'⟩
    · exact ⟨d, Or.inr (i3 d hd), l⟩

/-- A cluster with the same name later is the same cluster in a later state. -/
theorem later_le {cfg : Cfg} {evs evs' : List Ev} {c d : Cluster} (hc : c ∈ (run cfg evs).clusters)
    (hd : d ∈ (run cfg (evs ++ evs')).clusters) (hn : d.row.name = c.row.name) : Le c d := by
  rw [run_append] at hd
  obtain ⟨i1, i2, -⟩ := fold_le evs' (run_inv cfg evs)
  obtain ⟨x, hx, l⟩ := i2 c hc
  rcases hx with hx | hx
  · have := cname_inj i1.named.nodup hd hx (hn.trans l.name.symm)
    subst this
    exact l
  · exact absurd (hn.trans l.name.symm) (i1.named.disjoint d hd x hx)

end Verif.Backend
