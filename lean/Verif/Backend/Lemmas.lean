import Verif.Backend.Spec
/-
Folding micro-actions over one cluster, prefixes, and the write-through of the database.
-/
set_option linter.unusedSimpArgs false
set_option linter.unusedVariables false
namespace Verif.Backend

/-- Micro-actions as seen by one cluster. -/
def onAll (c : Cluster) (l : List Act) : Cluster := l.foldl (fun c a => a.onCluster c) c

@[simp] theorem onAll_nil (c : Cluster) : onAll c [] = c := rfl
@[simp] theorem onAll_cons (c : Cluster) (a : Act) (l : List Act) :
    onAll c (a :: l) = onAll (a.onCluster c) l := rfl
theorem onAll_append (c : Cluster) (l l' : List Act) :
    onAll c (l ++ l') = onAll (onAll c l) l' := by simp [onAll]

/-- A predicate holds of the cluster at every point of a list of micro-actions. -/
def AllPrefix (P : Cluster → Prop) : Cluster → List Act → Prop
  | c, [] => P c
  | c, a :: l => P c ∧ AllPrefix P (a.onCluster c) l

theorem AllPrefix.head {P : Cluster → Prop} {c : Cluster} {l : List Act} (h : AllPrefix P c l) : P c := by
  cases l with
  | nil => exact h
  | cons a l => exact h.1

theorem AllPrefix.last {P : Cluster → Prop} : ∀ {c : Cluster} {l : List Act}, AllPrefix P c l →
    P (onAll c l)
  | _, [], h => h
  | _, _ :: l, h => by
    rw [onAll_cons]
    exact AllPrefix.last (l := l) h.2

theorem AllPrefix.append {P : Cluster → Prop} : ∀ {c : Cluster} {l l' : List Act}, AllPrefix P c l →
    AllPrefix P (onAll c l) l' → AllPrefix P c (l ++ l')
  | _, [], _, _, h' => h'
  | _, _ :: _, _, h, h' => ⟨h.1, AllPrefix.append h.2 h'⟩

theorem AllPrefix.take {P : Cluster → Prop} : ∀ {c : Cluster} {l : List Act} (k : Nat),
    AllPrefix P c l → P (onAll c (l.take k))
  | _, l, 0, h => by simpa using h.head
  | _, [], k + 1, h => h
  | _, a :: l, k + 1, h => AllPrefix.take (l := l) k h.2

theorem AllPrefix.imp {P Q : Cluster → Prop} (hpq : ∀ c, P c → Q c) : ∀ {c : Cluster} {l : List Act},
    AllPrefix P c l → AllPrefix Q c l
  | _, [], h => hpq _ h
  | _, _ :: _, h => ⟨hpq _ h.1, AllPrefix.imp hpq h.2⟩

theorem onAll_id {c : Cluster} {l : List Act} (h : ∀ a ∈ l, a.onCluster c = c) : onAll c l = c := by
  induction l with
  | nil => rfl
  | cons a l ih =>
    rw [onAll_cons, h a (by simp)]
    exact ih (fun b hb => h b (by simp [hb]))

theorem AllPrefix.of_id {P : Cluster → Prop} {c : Cluster} {l : List Act} (hp : P c)
    (h : ∀ a ∈ l, a.onCluster c = c) : AllPrefix P c l := by
  induction l with
  | nil => exact hp
  | cons a l ih =>
    refine ⟨hp, ?_⟩
    rw [h a (by simp)]
    exact ih (fun b hb => h b (by simp [hb]))

/-! ### Single actions -/

@[simp] theorem CUpd.app_empty (r : CRow) : CUpd.app {} r = r := rfl
@[simp] theorem WUpd.app_empty (r : WRow) : WUpd.app {} r = r := rfl
@[simp] theorem CUpd.app_name (u : CUpd) (r : CRow) : (u.app r).name = r.name := rfl
@[simp] theorem WUpd.app_name (u : WUpd) (r : WRow) : (u.app r).name = r.name := rfl
@[simp] theorem CUpd.app_user (u : CUpd) (r : CRow) : (u.app r).user = r.user := rfl

@[simp] theorem onWorker_name (a : Act) (n : Nat) (w : Worker) :
    (a.onWorker n w).row.name = w.row.name := by
  cases a <;> simp [Act.onWorker] <;> split <;> simp

@[simp] theorem onCluster_name (a : Act) (c : Cluster) :
    (a.onCluster c).row.name = c.row.name := by
  cases a <;> simp [Act.onCluster] <;> split <;> simp

@[simp] theorem onAll_name (c : Cluster) (l : List Act) : (onAll c l).row.name = c.row.name := by
  induction l generalizing c with
  | nil => rfl
  | cons a l ih => rw [onAll_cons, ih, onCluster_name]

theorem updC1_on (n : Nat) (u : CUpd) (c : Cluster) (h : c.row.name = n) :
    (updC1 n u).onCluster c = { c with row := u.app c.row } := by
  simp [updC1, Act.onCluster, h]

theorem updC1_off (n : Nat) (u : CUpd) (c : Cluster) (h : c.row.name ≠ n) :
    (updC1 n u).onCluster c = c := by
  simp [updC1, Act.onCluster, h]

/-- One worker's row updated if it is one of the named. -/
def Worker.updIf (p : Bool) (u : WUpd) (w : Worker) : Worker :=
  if p then { w with row := u.app w.row } else w

theorem updW_on (f : Nat → Nat → WUpd) (c : Cluster) :
    (Act.updW f).onCluster c =
      { c with workers := c.workers.map (fun w => { w with row := (f c.row.name w.row.name).app w.row }) } := by
  simp only [Act.onCluster]
  rfl

theorem map_id_of {α : Type} {l : List α} {f : α → α} (h : ∀ a ∈ l, f a = a) : l.map f = l := by
  induction l with
  | nil => rfl
  | cons a l ih => simp [h a (by simp), ih (fun b hb => h b (by simp [hb]))]

theorem updW_off (f : Nat → Nat → WUpd) (c : Cluster) (h : ∀ x, f c.row.name x = {}) :
    (Act.updW f).onCluster c = c := by
  rw [updW_on]
  have : c.workers.map (fun w => { w with row := (f c.row.name w.row.name).app w.row }) = c.workers :=
    map_id_of (fun w _ => by simp [h])
  rw [this]

theorem updW1_off (n w : Nat) (u : WUpd) (c : Cluster) (h : c.row.name ≠ n) :
    (updW1 n w u).onCluster c = c := updW_off _ _ (by simp [h])

theorem updWs_off (n : Nat) (ws : List Nat) (u : WUpd) (c : Cluster) (h : c.row.name ≠ n) :
    (updWs n ws u).onCluster c = c := updW_off _ _ (by simp [h])

theorem updWs_on (n : Nat) (ws : List Nat) (u : WUpd) (c : Cluster) (h : c.row.name = n) :
    (updWs n ws u).onCluster c =
      { c with workers := c.workers.map (fun w =>
          if w.row.name ∈ ws then { w with row := u.app w.row } else w) } := by
  rw [updWs, updW_on]
  congr 1
  apply List.map_congr_left
  intro w _
  by_cases hw : w.row.name ∈ ws <;> simp [h, hw]

theorem updW1_on (n x : Nat) (u : WUpd) (c : Cluster) (h : c.row.name = n) :
    (updW1 n x u).onCluster c =
      { c with workers := c.workers.map (fun w =>
          if w.row.name = x then { w with row := u.app w.row } else w) } := by
  rw [updW1, updW_on]
  congr 1
  apply List.map_congr_left
  intro w _
  by_cases hw : w.row.name = x <;> simp [h, hw]

theorem putW_on (f : Nat → Nat → Bool) (c : Cluster) :
    (Act.putW f).onCluster c =
      { c with workers := c.workers.map (fun w =>
          if f c.row.name w.row.name then { w with vol := { w.vol with pending := true } } else w) } := by
  simp only [Act.onCluster]
  rfl

theorem putW_off (f : Nat → Nat → Bool) (c : Cluster) (h : ∀ x, f c.row.name x = false) :
    (Act.putW f).onCluster c = c := by
  rw [putW_on]
  have : c.workers.map (fun w => if f c.row.name w.row.name then
      { w with vol := { w.vol with pending := true } } else w) = c.workers :=
    map_id_of (fun w _ => by simp [h])
  rw [this]

theorem putWs_off (n : Nat) (ws : List Nat) (c : Cluster) (h : c.row.name ≠ n) :
    (putWs n ws).onCluster c = c := putW_off _ _ (by simp [h])

theorem putWs_on (n : Nat) (ws : List Nat) (c : Cluster) (h : c.row.name = n) :
    (putWs n ws).onCluster c =
      { c with workers := c.workers.map (fun w =>
          if w.row.name ∈ ws then { w with vol := { w.vol with pending := true } } else w) } := by
  rw [putWs, putW_on]
  congr 1
  apply List.map_congr_left
  intro w _
  by_cases hw : w.row.name ∈ ws <;> simp [h, hw]

theorem putC1_on (n : Nat) (c : Cluster) (h : c.row.name = n) :
    (putC1 n).onCluster c = { c with vol := { c.vol with pending := true } } := by
  simp [putC1, Act.onCluster, h]

theorem putC1_off (n : Nat) (c : Cluster) (h : c.row.name ≠ n) : (putC1 n).onCluster c = c := by
  simp [putC1, Act.onCluster, h]

theorem volC_on (n : Nat) (f : CVol → CVol) (c : Cluster) (h : c.row.name = n) :
    (Act.volC n f).onCluster c = { c with vol := f c.vol } := by
  simp [Act.onCluster, h]

theorem volC_off (n : Nat) (f : CVol → CVol) (c : Cluster) (h : c.row.name ≠ n) :
    (Act.volC n f).onCluster c = c := by
  simp [Act.onCluster, Ne.symm h]

theorem volW_on (n x : Nat) (f : WVol → WVol) (c : Cluster) (h : c.row.name = n) :
    (Act.volW n x f).onCluster c =
      { c with workers := c.workers.map (fun w =>
          if w.row.name = x then { w with vol := f w.vol } else w) } := by
  simp only [Act.onCluster]
  congr 1
  apply List.map_congr_left
  intro w _
  by_cases hw : w.row.name = x
  · simp [Act.onWorker, h, hw]
  · simp [Act.onWorker, h, hw, Ne.symm hw]

theorem volW_off (n x : Nat) (f : WVol → WVol) (c : Cluster) (h : c.row.name ≠ n) :
    (Act.volW n x f).onCluster c = c := by
  have : c.workers.map ((Act.volW n x f).onWorker c.row.name) = c.workers :=
    map_id_of (fun w _ => by simp [Act.onWorker, Ne.symm h])
  simp only [Act.onCluster, this]

theorem newW_on (n : Nat) (r : WRow) (c : Cluster) (h : c.row.name = n) :
    (Act.newW n r).onCluster c = { c with workers := c.workers ++ [Worker.fresh r] } := by
  simp [Act.onCluster, h]

theorem newW_off (n : Nat) (r : WRow) (c : Cluster) (h : c.row.name ≠ n) :
    (Act.newW n r).onCluster c = c := by
  simp [Act.onCluster, Ne.symm h]

/-! ### The state -/

/-- Actions that neither create nor remove clusters. -/
def Act.plain : Act → Bool
  | .newC _ | .purge _ => false
  | _ => true

theorem apply_plain (s : State) (a : Act) (h : a.plain = true) :
    (s.apply a).clusters = s.clusters.map a.onCluster ∧ (s.apply a).purged = s.purged ∧
    (s.apply a).chkC = s.chkC ∧ (s.apply a).chkW = s.chkW := by
  cases a <;> simp [State.apply, Act.plain] at h ⊢

theorem applyAll_plain (s : State) (l : List Act) (h : ∀ a ∈ l, a.plain = true) :
    (s.applyAll l).clusters = s.clusters.map (fun c => onAll c l) ∧ (s.applyAll l).purged = s.purged ∧
    (s.applyAll l).chkC = s.chkC ∧ (s.applyAll l).chkW = s.chkW := by
  induction l generalizing s with
  | nil => simp [State.applyAll]
  | cons a l ih =>
    obtain ⟨h1, h2, h3, h4⟩ := apply_plain s a (h a (by simp))
    obtain ⟨i1, i2, i3, i4⟩ := ih (s.apply a) (fun b hb => h b (by simp [hb]))
    simp only [State.applyAll, List.foldl_cons] at i1 i2 i3 i4 ⊢
    refine ⟨?_, i2.trans h2, i3.trans h3, i4.trans h4⟩
    rw [i1, h1, List.map_map]
    rfl

/-- A cluster's rows, as they should be stored. -/
def Cluster.entry (c : Cluster) : DbEntry := (c.row, c.workers.map (fun w => w.row))

theorem entry_onCluster (a : Act) (h : a.plain = true) (c : Cluster) :
    (a.onCluster c).entry = a.onEntry c.entry := by
  cases a with
  | updC f => rfl
  | updW f =>
    rw [updW_on]
    simp [Cluster.entry, Act.onEntry, Function.comp_def]
  | putW f =>
    rw [putW_on]
    simp only [Cluster.entry, Act.onEntry, List.map_map, Prod.mk.injEq, true_and]
    apply List.map_congr_left
    intro w _
    simp only [Function.comp]
    split <;> rfl
  | volW n x f =>
    simp only [Act.onCluster, Cluster.entry, Act.onEntry, List.map_map, Prod.mk.injEq, true_and]
    apply List.map_congr_left
    intro w _
    simp only [Function.comp, Act.onWorker]
    split <;> rfl
  | newW n r =>
    simp only [Act.onCluster, Act.onEntry]
    by_cases hn : n = c.row.name <;> simp [hn, Cluster.entry, Worker.fresh]
  | putC f =>
    simp only [Act.onCluster, Act.onEntry]
    split <;> rfl
  | volC n f =>
    simp only [Act.onCluster, Act.onEntry]
    split <;> rfl
  | newC r => simp [Act.plain] at h
  | purge p => simp [Act.plain] at h

/-- The database holds exactly what the process holds in memory. -/
def Synced (s : State) : Prop := s.db = s.clusters.map Cluster.entry

theorem synced_apply (s : State) (a : Act) (h : Synced s) : Synced (s.apply a) := by
  unfold Synced at *
  have plain (hp : a.plain = true) :
      s.db.map a.onEntry = (s.clusters.map a.onCluster).map Cluster.entry := by
    rw [h, List.map_map, List.map_map]
    apply List.map_congr_left
    intro c _
    simp [entry_onCluster a hp]
  cases a with
  | newC r => simp [State.apply, h, Cluster.entry]
  | purge p =>
    simp only [State.apply, h, List.filter_map]
    rfl
  | newW n r => exact plain rfl
  | updC f => exact plain rfl
  | updW f => exact plain rfl
  | putC f => exact plain rfl
  | putW f => exact plain rfl
  | volC n f => exact plain rfl
  | volW n w f => exact plain rfl

theorem synced_applyAll (s : State) (l : List Act) (h : Synced s) : Synced (s.applyAll l) := by
  induction l generalizing s with
  | nil => exact h
  | cons a l ih => exact ih _ (synced_apply s a h)

/-! ### Fresh names -/

/-- All names are below the counter, and cluster names are distinct. -/
structure Named (s : State) : Prop where
  nodup : (s.clusters.map (fun c => c.row.name)).Nodup
  bound : ∀ c ∈ s.clusters, c.row.name < s.next ∧ ∀ w ∈ c.workers, w.row.name < s.next
  purgedBound : ∀ c ∈ s.purged, c.row.name < s.next
  disjoint : ∀ c ∈ s.clusters, ∀ p ∈ s.purged, c.row.name ≠ p.row.name

/-- The list creates objects named from `next` on. -/
def Fresh : Nat → List Act → Prop
  | _, [] => True
  | next, .newC r :: l => r.name = next ∧ Fresh (next + 1) l
  | next, .newW _ r :: l => r.name = next ∧ Fresh (next + 1) l
  | next, _ :: l => Fresh next l

theorem Fresh.take : ∀ (k next : Nat) (l : List Act), Fresh next l → Fresh next (l.take k)
  | 0, _, l, _ => by simp [Fresh]
  | _ + 1, _, [], _ => by simp [Fresh]
  | k + 1, next, a :: l, h => by
    cases a <;> simp only [Fresh, List.take_succ_cons] at h ⊢
    case newC => exact ⟨h.1, Fresh.take k _ l h.2⟩
    case newW => exact ⟨h.1, Fresh.take k _ l h.2⟩
    all_goals exact Fresh.take k _ l h

theorem Fresh.of_none (next : Nat) : ∀ l : List Act,
    (∀ a ∈ l, a.plain = true ∧ ∀ n r, a ≠ .newW n r) → Fresh next l
  | [], _ => trivial
  | a :: l, h => by
    have h1 := h a (by simp)
    have h2 := Fresh.of_none next l (fun b hb => h b (by simp [hb]))
    cases a <;> simp [Fresh, Act.plain] at h1 ⊢ <;> exact h2

theorem onCluster_workers_names (a : Act) (c : Cluster) (h : ∀ n r, a ≠ .newW n r) :
    names (a.onCluster c).workers = names c.workers := by
  have m : names (c.workers.map (a.onWorker c.row.name)) = names c.workers := by
    simp [names, Function.comp_def]
  cases a with
  | newW n r => exact absurd rfl (h n r)
  | updW f => exact m
  | putW f => exact m
  | volW n x f => exact m
  | updC f => rfl
  | newC r => rfl
  | purge p => rfl
  | putC f => simp only [Act.onCluster]; split <;> rfl
  | volC n f => simp only [Act.onCluster]; split <;> rfl

theorem names_bound {ws : List Worker} {b : Nat} :
    (∀ w ∈ ws, w.row.name < b) ↔ ∀ x ∈ names ws, x < b := by
  simp [names]

theorem named_plain {s : State} {a : Act} (h : Named s) (hp : a.plain = true)
    (hn : ∀ n r, a ≠ .newW n r) : Named (s.apply a) := by
  obtain ⟨h1, h2, -, -⟩ := apply_plain s a hp
  have hx : (s.apply a).next = s.next := by
    cases a <;> simp [State.apply, Act.plain] at hp hn ⊢
  refine ⟨?_, ?_, ?_, ?_⟩
  · rw [h1, List.map_map]
    simpa [Function.comp_def] using h.nodup
  · rw [h1, hx]
    intro c hc
    obtain ⟨d, hd, rfl⟩ := List.mem_map.1 hc
    refine ⟨by simpa using (h.bound d hd).1, ?_⟩
    rw [names_bound, onCluster_workers_names _ _ hn, ← names_bound]
    exact (h.bound d hd).2
  · rw [h2, hx]; exact h.purgedBound
  · rw [h1, h2]
    intro c hc p hpp
    obtain ⟨d, hd, rfl⟩ := List.mem_map.1 hc
    simpa using h.disjoint d hd p hpp

theorem named_newW {s : State} {n : Nat} {r : WRow} (h : Named s) (hr : r.name = s.next) :
    Named (s.apply (.newW n r)) := by
  refine ⟨?_, ?_, ?_, ?_⟩
  · simp only [State.apply, List.map_map]
    simpa [Function.comp_def] using h.nodup
  · intro c hc
    simp only [State.apply] at hc ⊢
    obtain ⟨d, hd, rfl⟩ := List.mem_map.1 hc
    obtain ⟨b1, b2⟩ := h.bound d hd
    refine ⟨by simp; omega, ?_⟩
    intro w hw
    simp only [Act.onCluster] at hw
    split at hw
    · simp at hw
      rcases hw with hw | rfl
      · have := b2 w hw; omega
      · simp [Worker.fresh, hr]
    · have := b2 w hw; omega
  · intro p hp
    have := h.purgedBound p hp
    simp only [State.apply]; omega
  · intro c hc p hp
    simp only [State.apply] at hc
    obtain ⟨d, hd, rfl⟩ := List.mem_map.1 hc
    simpa using h.disjoint d hd p hp

theorem named_newC {s : State} {r : CRow} (h : Named s) (hr : r.name = s.next) :
    Named (s.apply (.newC r)) := by
  refine ⟨?_, ?_, ?_, ?_⟩
  · simp only [State.apply, List.map_append, List.map_cons, List.map_nil]
    rw [List.nodup_append]
    refine ⟨h.nodup, by simp, ?_⟩
    intro a ha b hb
    obtain ⟨c, hc, rfl⟩ := List.mem_map.1 ha
    simp at hb
    have := (h.bound c hc).1
    omega
  · intro c hc
    simp only [State.apply, List.mem_append, List.mem_singleton] at hc ⊢
    rcases hc with hc | rfl
    · obtain ⟨b1, b2⟩ := h.bound c hc
      exact ⟨by omega, fun w hw => by have := b2 w hw; omega⟩
    · exact ⟨by simp [hr], by simp⟩
  · intro p hp
    have := h.purgedBound p hp
    simp only [State.apply]; omega
  · intro c hc p hp
    simp only [State.apply, List.mem_append, List.mem_singleton] at hc hp
    rcases hc with hc | rfl
    · exact h.disjoint c hc p hp
    · have := h.purgedBound p hp
      simp [hr]; omega

theorem named_purge {s : State} {q : Nat → Bool} (h : Named s) : Named (s.apply (.purge q)) := by
  refine ⟨?_, ?_, ?_, ?_⟩
  · simp only [State.apply]
    exact h.nodup.sublist (List.filter_sublist.map _)
  · intro c hc
    simp only [State.apply] at hc ⊢
    exact h.bound c (List.mem_filter.1 hc).1
  · intro p hp
    simp only [State.apply, List.mem_append] at hp ⊢
    rcases hp with hp | hp
    · exact h.purgedBound p hp
    · exact (h.bound p (List.mem_filter.1 hp).1).1
  · intro c hc p hp
    simp only [State.apply, List.mem_append] at hc hp
    obtain ⟨hc, hq⟩ := List.mem_filter.1 hc
    rcases hp with hp | hp
    · exact h.disjoint c hc p hp
    · intro he
      have := (List.mem_filter.1 hp).2
      rw [← he] at this
      simp [this] at hq

theorem named_applyAll {s : State} {l : List Act} (h : Named s) (hf : Fresh s.next l) :
    Named (s.applyAll l) := by
  induction l generalizing s with
  | nil => exact h
  | cons a l ih =>
    cases a <;> simp only [Fresh] at hf
    case newC r => exact ih (named_newC h hf.1) hf.2
    case newW n r => exact ih (named_newW h hf.1) hf.2
    case purge q => exact ih (named_purge h) hf
    all_goals exact ih (named_plain h rfl (by simp)) hf

end Verif.Backend
