import Verif.Kube.PodsProps
/-! Property C71: which pod events have a cluster reconciled. -/
set_option linter.unusedSimpArgs false
namespace Verif.Kube

/-! ### Specification -/

/-- What a report adds to the queue. -/
def wakes (l : List Report) (r : Report) : List Str :=
  (watchPods (l ++ [r])).queued.drop (watchPods l).queued.length

/-- The expectations of a cluster are more than ten minutes old when a report comes. -/
def Report.old (r : Report) (key : Str) : Prop := 600 < r.now - (r.counts key).2.2

/-- Everything expected of a cluster has been seen, counting an update of one of its workers. -/
def Report.metByUpdate (r : Report) (l : List Report) (key name : Str) : Prop :=
  (r.counts key).1 ≤ (if lastShown l key name = none then 1 else 0) ∧ (r.counts key).2.1 ≤ 0

/-- Everything expected of a cluster has been seen, counting the deletion of one of its workers. -/
def Report.metByDelete (r : Report) (l : List Report) (key name : Str) : Prop :=
  (r.counts key).1 ≤ 0 ∧ (r.counts key).2.1 ≤ (if lastShown l key name = none then 0 else 1)

/-! ### Lemmas -/

private theorem names : workerName ≠ schedulerName := by decide

private theorem snoc (l : List Report) (r : Report) : watchPods (l ++ [r]) = match r.event with
    | .update p => ((watchPods l).between r.counts).onUpdate r.stopped r.now p
    | .delete p => ((watchPods l).between r.counts).onDelete r.stopped r.now p := by
  unfold watchPods
  rw [List.foldl_append]; rfl

private theorem putIf_queued (s : Pods) (c : Bool) (key : Str) :
    (s.putIf c key).queued = s.queued ++ if c then [key] else [] := by
  unfold Pods.putIf
  cases c <;> simp

private theorem wakes_eq {l : List Report} {r : Report} {a : List Str}
    (h : (watchPods (l ++ [r])).queued = (watchPods l).queued ++ a) : wakes l r = a := by
  unfold wakes
  rw [h, List.drop_left]

private theorem trigger_iff (i : Info) (now : Rat) : i.shouldTrigger now = true ↔
    (i.creates ≤ 0 ∧ i.deletes ≤ 0) ∨ 600 < now - i.stamp := by
  unfold Info.shouldTrigger Info.fulfilled Info.expired
  rw [Bool.or_eq_true, decide_eq_true_eq, decide_eq_true_eq]

private theorem all_iff (l : List Report) (key name : Str) :
    name ∈ ((watchPods l).infos key).all ↔ lastShown l key name ≠ none := by
  rw [C50_partition]
  simp only [C50_sets]
  cases lastShown l key name with
  | none => simp
  | some k => exact ⟨fun _ h => (by cases h), fun _ => ⟨k, rfl, fun k' h => (Option.some.inj h).symm⟩⟩

private theorem update_counts (i : Info) (k : Kind) (pod : Str) :
    (i.update k pod).1.creates = i.creates - (if pod ∈ i.all then 0 else 1) ∧
    (i.update k pod).1.deletes = i.deletes ∧ (i.update k pod).1.stamp = i.stamp := by
  unfold Info.update
  dsimp only
  split
  · exact ⟨by simp, rfl, rfl⟩
  · exact ⟨rfl, rfl, rfl⟩

private theorem deleted_counts (i : Info) (pod : Str) :
    (i.deleted pod).creates = i.creates ∧
    (i.deleted pod).deletes = i.deletes - (if pod ∈ i.all then 1 else 0) ∧
    (i.deleted pod).stamp = i.stamp := by
  unfold Info.deleted
  split
  · exact ⟨rfl, rfl, rfl⟩
  · exact ⟨rfl, by simp, rfl⟩

private theorem update_trigger (l : List Report) (r : Report) (key name : Str) (k : Kind) :
    (((((watchPods l).between r.counts).infos key).update k name).1.shouldTrigger r.now = true ↔
      r.metByUpdate l key name ∨ r.old key) := by
  have hc := update_counts (((watchPods l).between r.counts).infos key) k name
  have ha : name ∈ (((watchPods l).between r.counts).infos key).all ↔ _ := all_iff l key name
  rw [trigger_iff, hc.1, hc.2.1, hc.2.2]
  change (r.counts key).1 - _ ≤ 0 ∧ (r.counts key).2.1 ≤ 0 ∨ 600 < r.now - (r.counts key).2.2 ↔ _
  unfold Report.metByUpdate Report.old
  by_cases h : lastShown l key name = none
  · rw [if_neg (fun h' => ha.1 h' h), if_pos h]
    exact or_congr (and_congr (by omega) Iff.rfl) Iff.rfl
  · rw [if_pos (ha.2 h), if_neg h]
    exact or_congr (and_congr (by omega) Iff.rfl) Iff.rfl

private theorem delete_trigger (l : List Report) (r : Report) (key name : Str) :
    (((((watchPods l).between r.counts).infos key).deleted name).shouldTrigger r.now = true ↔
      r.metByDelete l key name ∨ r.old key) := by
  have hc := deleted_counts (((watchPods l).between r.counts).infos key) name
  have ha : name ∈ (((watchPods l).between r.counts).infos key).all ↔ _ := all_iff l key name
  rw [trigger_iff, hc.1, hc.2.1, hc.2.2]
  change (r.counts key).1 ≤ 0 ∧ (r.counts key).2.1 - _ ≤ 0 ∨ 600 < r.now - (r.counts key).2.2 ↔ _
  unfold Report.metByDelete Report.old
  by_cases h : lastShown l key name = none
  · rw [if_neg (fun h' => ha.1 h' h), if_pos h]
    exact or_congr (and_congr Iff.rfl (by omega)) Iff.rfl
  · rw [if_pos (ha.2 h), if_neg h]
    exact or_congr (and_congr Iff.rfl (by omega)) Iff.rfl

/-- A worker's update that shows something. -/
private theorem worker_shown {l : List Report} {r : Report} {p : Pod} {key : Str} {k : Kind}
    (he : r.event = .update p) (hk : p.clusterKey = some key) (hc : p.component = some workerName)
    (hs : shown p = some k) (hst : r.stopped key = false) :
    wakes l r = [key] ↔ (lastShown l key p.name ≠ some k ∧ p.phase = .failed) ∨
      r.metByUpdate l key p.name ∨ r.old key := by
  have hne : p.phase ≠ .unknown := by
    intro e; unfold shown at hs; rw [e] at hs; simp at hs
  obtain ⟨cs, hcs⟩ : ∃ cs, p.container workerName = some cs := by
    cases h : p.container workerName with
    | some cs => exact ⟨cs, rfl⟩
    | none => unfold shown at hs; rw [h] at hs; simp at hs
  have hcl : classify p.phase cs = some k := by
    unfold shown at hs
    rw [hcs] at hs
    unfold classify
    revert hs
    cases p.phase <;> cases cs <;> simp
    rename_i c
    split <;> simp_all
  have e : watchPods (l ++ [r]) = (((watchPods l).between r.counts).setInfo key
      ((((watchPods l).between r.counts).infos key).update k p.name).1).putIf
        (((((((watchPods l).between r.counts).infos key).update k p.name).2 && decide (p.phase = .failed)) ||
          ((((watchPods l).between r.counts).infos key).update k p.name).1.shouldTrigger r.now) &&
            !r.stopped key) key := by
    rw [snoc, he]
    dsimp only
    unfold Pods.onUpdate
    rw [hk]
    dsimp only
    rw [if_neg (by rw [hc]; exact fun h => names (Option.some.inj h)), if_pos hc]
    unfold Pods.workerUpdate
    rw [if_neg hne, hcs]
    dsimp only
    rw [hcl]
  have hq := congrArg Pods.queued e
  rw [putIf_queued] at hq
  rw [wakes_eq hq, hst, ← update_trigger l r key p.name k]
  have hch : ((((watchPods l).between r.counts).infos key).update k p.name).2 = true ↔
      lastShown l key p.name ≠ some k := by
    unfold Info.update
    dsimp only
    rw [decide_eq_true_eq]
    exact not_congr (C50_sets l key p.name k)
  rw [← hch]
  cases ((((watchPods l).between r.counts).infos key).update k p.name).2 <;>
    cases ((((watchPods l).between r.counts).infos key).update k p.name).1.shouldTrigger r.now <;> simp

/-! ### C71 -/

/-- C71: a report has at most the cluster of its pod reconciled, and not if it is being stopped. -/
theorem C71_only_own (l : List Report) (r : Report) :
    wakes l r = [] ∨ ∃ key, r.event.pod.clusterKey = some key ∧ r.stopped key = false ∧
      wakes l r = [key] := by
  have main : ∀ key c, r.event.pod.clusterKey = some key →
      (watchPods (l ++ [r])).queued = (watchPods l).queued ++ (if c && !r.stopped key then [key] else []) →
      wakes l r = [] ∨ ∃ key, r.event.pod.clusterKey = some key ∧ r.stopped key = false ∧
        wakes l r = [key] := by
    intro key c hk h
    have := wakes_eq h
    cases hs : r.stopped key with
    | true => left; rw [this, hs]; simp
    | false =>
      cases c with
      | false => left; rw [this]; simp
      | true => right; exact ⟨key, hk, hs, by rw [this, hs]; rfl⟩
  have none' : (watchPods (l ++ [r])).queued = (watchPods l).queued → wakes l r = [] := fun h =>
    wakes_eq (by rw [h, List.append_nil])
  cases he : r.event with
  | update p =>
    rw [he] at main
    simp only [PodEvent.pod] at main ⊢
    have hsn := snoc l r
    rw [he] at hsn
    dsimp only at hsn
    unfold Pods.onUpdate at hsn
    cases hk : p.clusterKey with
    | none =>
      rw [hk] at hsn
      exact Or.inl (none' (by rw [hsn]; rfl))
    | some key =>
      rw [hk] at hsn
      dsimp only at hsn
      have main' := fun c => main key c hk
      rw [hk] at main'
      split at hsn
      · exact main' _ (by rw [hsn, putIf_queued]; rfl)
      · split at hsn
        · unfold Pods.workerUpdate at hsn
          repeat' split at hsn
          all_goals first
            | (have h := congrArg Pods.queued hsn; try dsimp only at h
               rw [putIf_queued] at h; exact main' _ h)
            | (refine Or.inl (none' ?_); rw [hsn]; rfl)
        · exact Or.inl (none' (by rw [hsn]; rfl))
  | delete p =>
    rw [he] at main
    simp only [PodEvent.pod] at main ⊢
    have hsn := snoc l r
    rw [he] at hsn
    dsimp only at hsn
    unfold Pods.onDelete at hsn
    cases hk : p.clusterKey with
    | none =>
      rw [hk] at hsn
      exact Or.inl (none' (by rw [hsn]; rfl))
    | some key =>
      rw [hk] at hsn
      dsimp only at hsn
      have main' := fun c => main key c hk
      rw [hk] at main'
      split at hsn
      · rename_i hc
        exact main' true (by rw [hsn, putIf_queued, hc.2]; rfl)
      · split at hsn
        · exact main' _ (by rw [hsn, putIf_queued]; rfl)
        · exact Or.inl (none' (by rw [hsn]; rfl))

/-- C71: when a worker is reported as failed for the first time since it was last reported otherwise,
its cluster is reconciled, whatever is expected. -/
theorem C71_failed (l : List Report) (r : Report) (p : Pod) (key : Str) (he : r.event = .update p)
    (hk : p.clusterKey = some key) (hc : p.component = some workerName) (hp : p.phase = .failed)
    (hs : (p.container workerName).isSome) (hn : lastShown l key p.name ≠ some .failed)
    (hst : r.stopped key = false) : wakes l r = [key] := by
  have hsh : shown p = some .failed := by
    unfold shown
    rw [hp]
    cases h : p.container workerName with
    | some cs => rfl
    | none => rw [h] at hs; cases hs
  exact (worker_shown he hk hc hsh hst).2 (Or.inl ⟨hn, hp⟩)

/-- C71: any other report that shows something of a worker has its cluster reconciled exactly if
everything expected has been seen, or has been expected for more than ten minutes. -/
theorem C71_worker (l : List Report) (r : Report) (p : Pod) (key : Str) (k : Kind)
    (he : r.event = .update p) (hk : p.clusterKey = some key) (hc : p.component = some workerName)
    (hs : shown p = some k) (hp : p.phase = .failed → lastShown l key p.name = some k)
    (hst : r.stopped key = false) :
    wakes l r = [key] ↔ r.metByUpdate l key p.name ∨ r.old key := by
  rw [worker_shown he hk hc hs hst]
  exact ⟨fun h => h.resolve_left (fun h' => h'.1 (hp h'.2)), Or.inr⟩

/-- C71: so does the deletion of a worker. -/
theorem C71_worker_deleted (l : List Report) (r : Report) (p : Pod) (key : Str)
    (he : r.event = .delete p) (hk : p.clusterKey = some key) (hc : p.component = some workerName)
    (hst : r.stopped key = false) :
    wakes l r = [key] ↔ r.metByDelete l key p.name ∨ r.old key := by
  have e : watchPods (l ++ [r]) = (((watchPods l).between r.counts).setInfo key
      ((((watchPods l).between r.counts).infos key).deleted p.name)).putIf
      (((((watchPods l).between r.counts).infos key).deleted p.name).shouldTrigger r.now &&
        !r.stopped key) key := by
    rw [snoc, he]
    dsimp only
    unfold Pods.onDelete
    rw [hk]
    dsimp only
    rw [if_neg (fun h => names (Option.some.inj (hc.symm.trans h.1))), if_pos hc]
  have hq := congrArg Pods.queued e
  rw [putIf_queued] at hq
  rw [wakes_eq hq, hst, ← delete_trigger l r key p.name]
  cases ((((watchPods l).between r.counts).infos key).deleted p.name).shouldTrigger r.now <;> simp

/-- C71: a cluster is reconciled when its scheduler's container is reported as running or terminated,
in a pod that is not pending. -/
theorem C71_scheduler (l : List Report) (r : Report) (p : Pod) (key : Str) (he : r.event = .update p)
    (hk : p.clusterKey = some key) (hc : p.component = some schedulerName)
    (hst : r.stopped key = false) :
    wakes l r = [key] ↔ p.phase ≠ .pending ∧
      (p.container schedulerName = some .running ∨
        ∃ code, p.container schedulerName = some (.terminated code)) := by
  have e : (watchPods (l ++ [r])).queued = (watchPods l).queued ++
      if decide (p.containerState schedulerName = .running ∨
        p.containerState schedulerName = .terminated) && !r.stopped key then [key] else [] := by
    rw [snoc, he]
    dsimp only
    unfold Pods.onUpdate
    rw [hk]
    dsimp only
    rw [if_pos hc, putIf_queued]
    rfl
  rw [wakes_eq e, hst]
  unfold Pod.containerState
  by_cases hp : p.phase = .pending
  · simp [hp]
  · cases h : p.container schedulerName with
    | none => simp [hp]
    | some cs => cases cs <;> simp [hp]

/-- C71: a cluster is reconciled when its scheduler pod is deleted. -/
theorem C71_scheduler_deleted (l : List Report) (r : Report) (p : Pod) (key : Str)
    (he : r.event = .delete p) (hk : p.clusterKey = some key) (hc : p.component = some schedulerName)
    (hst : r.stopped key = false) : wakes l r = [key] := by
  apply wakes_eq
  rw [snoc, he]
  dsimp only
  unfold Pods.onDelete
  rw [hk]
  dsimp only
  rw [if_pos ⟨hc, hst⟩, putIf_queued]
  rfl

/-- A worker of the cluster of the examples. -/
private def aWorker (name : Str) (phase : PodPhase) (cs : CState) : Pod :=
  { ns := ['n'], name, cluster := some ['c'], component := some workerName, phase
    containers := [(workerName, cs)] }

/-- A worker that runs and then fails has its cluster reconciled although a creation is expected, but
not if the cluster is being stopped, and not again. -/
example :
    let counts : Str → Int × Int × Rat := fun _ => (1, 0, 0)
    let running : Report := ⟨counts, fun _ => false, 0, .update (aWorker ['p'] .running .running)⟩
    let failed : Report := ⟨counts, fun _ => false, 1, .update (aWorker ['p'] .failed (.terminated 1))⟩
    lastShown [running] ['n', '.', 'c'] ['p'] = some .running ∧
    wakes [running] failed = [['n', '.', 'c']] ∧
    wakes [running] { failed with stopped := fun _ => true } = [] ∧
    wakes [running, failed] failed = [] ∧
    wakes [running, failed] { failed with now := 601 } = [['n', '.', 'c']] := by decide +kernel

/-- Seeing the last expected creation, or deletion, has the cluster reconciled. -/
example :
    let counts : Str → Int × Int × Rat := fun _ => (1, 0, 0)
    let counts' : Str → Int × Int × Rat := fun _ => (0, 1, 0)
    let pending : Report := ⟨counts, fun _ => false, 0, .update (aWorker ['p'] .pending .waiting)⟩
    let gone : Report := ⟨counts', fun _ => false, 0, .delete (aWorker ['p'] .pending .waiting)⟩
    wakes [] pending = [['n', '.', 'c']] ∧ wakes [pending] pending = [] ∧
    wakes [pending] gone = [['n', '.', 'c']] ∧ wakes [pending, gone] gone = [] := by decide +kernel

/-- Events of the scheduler have the cluster reconciled. -/
example :
    let counts : Str → Int × Int × Rat := fun _ => (1, 0, 0)
    let pod : Pod := { ns := ['n'], name := ['s'], cluster := some ['c']
                       component := some schedulerName, phase := .running
                       containers := [(schedulerName, .running)] }
    wakes [] ⟨counts, fun _ => false, 0, .update pod⟩ = [['n', '.', 'c']] ∧
    wakes [] ⟨counts, fun _ => false, 0, .delete pod⟩ = [['n', '.', 'c']] ∧
    wakes [] ⟨counts, fun _ => true, 0, .delete pod⟩ = [] := by decide +kernel

end Verif.Kube
