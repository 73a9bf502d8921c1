import Verif.KubeLoop.Crew
import Verif.Kube.PodsProps
/-! Property C132: a running cluster on Kubernetes gets the workers it was asked for. -/
set_option linter.unusedSimpArgs false
set_option linter.unusedVariables false
namespace Verif.KubeLoop
open Verif.Kube

/-! ### Specification -/

/-- The states of executions whose steps fulfil a condition. -/
inductive CrewReach (order : List Str → List Str) (P : Crew → CrewOp → Prop) : Crew → Prop
  | init {now} : CrewReach order P (.init now)
  | step {s op} : CrewReach order P s → P s op → CrewReach order P (s.step order op)

/-- Nothing is left to do for the workers. -/
structure Crew.Quiet (s : Crew) : Prop where
  cluster : s.shown = s.replicas
  news : s.news = []
  queue : s.queued = false
  timer : s.timer = false
  task : s.task = none

/-- The workers in a state. -/
def Crew.workers (s : Crew) (kind : Kind) : List Str := s.pods.filter (fun p => s.state p = some kind)

/-- The controller knows a pod that others delete. -/
def Acquainted (s : Crew) : CrewOp → Prop
  | .lost pod => pod ∈ s.info.all
  | _ => True

/-! ### Lists -/

private theorem length_le {l m : List Str} (h : l.Nodup) (hs : ∀ x ∈ l, x ∈ m) : l.length ≤ m.length :=
  List.Nodup.length_le_of_subset h hs

private theorem length_sDel {s : List Str} {x : Str} (h : s.Nodup) (hx : x ∈ s) :
    (sDel s x).length + 1 = s.length := by
  induction s with
  | nil => cases hx
  | cons a s ih =>
    rw [List.nodup_cons] at h
    by_cases e : a = x
    · subst e
      have : sDel (a :: s) a = s := by
        unfold sDel
        rw [List.filter_cons_of_neg (by simp), List.filter_eq_self]
        intro b hb
        simp only [decide_eq_true_eq]
        rintro rfl; exact h.1 hb
      rw [this]; rfl
    · have : sDel (a :: s) x = a :: sDel s x := by
        unfold sDel
        rw [List.filter_cons_of_pos (by simpa using e)]
      rw [this, List.length_cons, ih h.2 ((List.mem_cons.1 hx).resolve_left (fun h => e h.symm)), List.length_cons]

private theorem nodup_sDel {s : List Str} {x : Str} (h : s.Nodup) : (sDel s x).Nodup := h.filter _

/-! ### The invariant -/

/-- Pods that exist and are not known. -/
private def Crew.unseen (s : Crew) : List Str := s.pods.filter (fun p => p ∉ s.info.all)

/-- Pods that are known and do not exist. -/
private def Crew.gone (s : Crew) : List Str := s.info.all.filter (fun p => p ∉ s.pods)

private theorem mem_unseen {s : Crew} {p : Str} : p ∈ s.unseen ↔ p ∈ s.pods ∧ p ∉ s.info.all := by
  unfold Crew.unseen; simp

private theorem mem_gone {s : Crew} {p : Str} : p ∈ s.gone ↔ p ∈ s.info.all ∧ p ∉ s.pods := by
  unfold Crew.gone; simp

private def Crew.openCreates (s : Crew) : Nat :=
  match s.task with
  | none => 0
  | some t => t.inflight + t.todo

private def Crew.targets (s : Crew) : List Str :=
  match s.task with
  | none => []
  | some t => t.deleting ++ t.del

/-- Nothing is to be created or deleted. -/
private def Balanced (order : List Str → List Str) (i : Info) (n : Int) : Prop :=
  i.delta n ≤ 0 ∧
  pySlice (order (i.sets .pending)) (i.delta n) ++ sUnion (i.sets .succeeded) (i.sets .failed) = []

private structure Held (order : List Str → List Str) (s : Crew) (f : Str → Option Kind) : Prop where
  placed : Placed s.info f
  all : s.info.all.Nodup
  tidy : s.info.Tidy
  pods : s.pods.Nodup
  truth : ∀ p, p ∉ s.news → (p ∈ s.pods → f p = s.state p) ∧ (p ∉ s.pods → f p = none)
  blank : ∀ p ∈ s.pods, s.state p = none → f p = none
  known : ∀ p ∈ s.targets, p ∈ s.pods → p ∈ s.info.all
  nodup : s.targets.Nodup
  creates : s.info.creates ≤ s.openCreates + s.unseen.length
  deletes : s.info.deletes ≤ s.targets.length + s.gone.length
  bad : ∀ t, s.task = some t → t.bad = true → s.failed = true
  calm : s.task = none → s.failed = false
  wake : s.queued = false → s.timer = false → s.failed = false →
    s.info.fulfilled = false ∨ (s.task = none ∧ Balanced order s.info s.shown)

private theorem held_init (order : List Str → List Str) (now : Rat) : Held order (.init now) (fun _ => none) := by
  refine ⟨fun n => (by simp [Crew.init, Info.init]), List.nodup_nil, ⟨fun _ => List.nodup_nil, ?_⟩, List.nodup_nil,
    fun p _ => ⟨fun h => (by cases h), fun _ => rfl⟩, fun p h => (by cases h), fun p h => (by cases h), List.nodup_nil,
    Int.le_refl _, Int.le_refl _, fun t h => (by cases h), fun _ => rfl, fun h => (by cases h)⟩
  intro k k' n h; cases h

variable {order : List Str → List Str}

/-- A step that leaves pods and the controller's records alone. -/
private theorem held_frame {s : Crew} {f : Str → Option Kind} (h : Held order s f) {t : Crew}
    (e1 : t.info = s.info) (e2 : t.pods = s.pods) (e3 : t.state = s.state) (e4 : t.news = s.news)
    (e5 : t.task = s.task) (e6 : t.failed = s.failed)
    (hw : t.queued = false → t.timer = false → s.queued = false ∧ s.timer = false ∧ t.shown = s.shown) :
    Held order t f := by
  have ht : t.targets = s.targets := by unfold Crew.targets; rw [e5]
  have hc : t.openCreates = s.openCreates := by unfold Crew.openCreates; rw [e5]
  have hu : t.unseen = s.unseen := by unfold Crew.unseen; rw [e1, e2]
  have hg : t.gone = s.gone := by unfold Crew.gone; rw [e1, e2]
  refine ⟨by rw [e1]; exact h.placed, by rw [e1]; exact h.all, by rw [e1]; exact h.tidy, by rw [e2]; exact h.pods,
    ?_, ?_, ?_, by rw [ht]; exact h.nodup, by rw [e1, hc, hu]; exact h.creates, by rw [e1, ht, hg]; exact h.deletes,
    ?_, ?_, ?_⟩
  · rw [e2, e3, e4]; exact h.truth
  · rw [e2, e3]; exact h.blank
  · rw [e1, e2, ht]; exact h.known
  · rw [e5, e6]; exact h.bad
  · rw [e5, e6]; exact h.calm
  · intro q q' q''
    obtain ⟨w1, w2, w3⟩ := hw q q'
    rw [e1, e5, w3]
    exact h.wake w1 w2 (by rw [← e6]; exact q'')

/-- A new pod. -/
private theorem held_add {s : Crew} {f : Str → Option Kind} (h : Held order s f) {pod : Str}
    (h1 : pod ∉ s.info.all) (h2 : pod ∉ s.pods) (h3 : pod ∉ s.targets) :
    Held order (s.add pod) f ∧ s.unseen.length + 1 ≤ (s.add pod).unseen.length := by
  have hf : f pod = none := by
    have := (h.placed pod).1
    cases hp : f pod with
    | none => rfl
    | some k => exact absurd (this.2 (by rw [hp]; rfl)) h1
  have hnew : (s.add pod).pods.Nodup := by
    refine List.nodup_append.2 ⟨h.pods, by simp, ?_⟩
    intro a ha b hb e
    rw [List.mem_singleton] at hb
    subst hb; subst e; exact h2 ha
  have hu : s.unseen.length + 1 ≤ (s.add pod).unseen.length := by
    have : s.unseen ++ [pod] = (s.add pod).unseen := by
      unfold Crew.unseen Crew.add
      dsimp only
      rw [List.filter_append]
      congr 1
      rw [List.filter_cons_of_pos (by simpa using h1)]; rfl
    rw [← this, List.length_append]; exact Nat.le_refl _
  refine ⟨⟨h.placed, h.all, h.tidy, hnew, ?_, ?_, ?_, h.nodup, ?_, ?_, h.bad, h.calm, h.wake⟩, hu⟩
  · intro p hp
    have hp' : p ∉ s.news ∧ p ≠ pod := by
      refine ⟨fun x => hp (List.mem_append.2 (Or.inl x)), fun x => hp (List.mem_append.2 (Or.inr (by simp [x])))⟩
    obtain ⟨a, b⟩ := h.truth p hp'.1
    constructor
    · intro hm
      show f p = if p = pod then none else s.state p
      rw [if_neg hp'.2]
      refine a ?_
      rcases List.mem_append.1 hm with hm | hm
      · exact hm
      · exact absurd (List.mem_singleton.1 hm) hp'.2
    · exact fun hm => b (fun x => hm (List.mem_append.2 (Or.inl x)))
  · intro p hm hs
    by_cases e : p = pod
    · rw [e]; exact hf
    · refine h.blank p ?_ ?_
      · rcases List.mem_append.1 hm with hm | hm
        · exact hm
        · exact absurd (List.mem_singleton.1 hm) e
      · have : (if p = pod then none else s.state p) = none := hs
        rw [if_neg e] at this; exact this
  · intro p hp hm
    refine h.known p hp ?_
    rcases List.mem_append.1 hm with hm | hm
    · exact hm
    · exact absurd (List.mem_singleton.1 hm ▸ hp) h3
  · have := h.creates
    have e : (s.add pod).openCreates = s.openCreates := rfl
    have e' : (s.add pod).info = s.info := rfl
    rw [e, e']; omega
  · have := h.deletes
    have e : (s.add pod).targets = s.targets := rfl
    have e' : (s.add pod).info = s.info := rfl
    have : s.gone.length ≤ (s.add pod).gone.length := by
      refine length_le (h.all.filter _) (fun x hx => ?_)
      have hx' := mem_gone.1 hx
      refine mem_gone.2 ⟨hx'.1, fun hm => ?_⟩
      rcases List.mem_append.1 hm with hm | hm
      · exact hx'.2 hm
      · exact h1 (List.mem_singleton.1 hm ▸ hx'.1)
    rw [e, e']; omega

/-- A pod less. -/
private theorem held_drop {s : Crew} {f : Str → Option Kind} (h : Held order s f) {pod : Str}
    (h1 : pod ∈ s.info.all) (h2 : pod ∈ s.pods) :
    Held order (s.drop pod) f ∧ s.gone.length + 1 ≤ (s.drop pod).gone.length := by
  have hmem : ∀ p, p ∈ (s.drop pod).pods ↔ p ≠ pod ∧ p ∈ s.pods := fun p => mem_sDel
  have hg : s.gone.length + 1 ≤ (s.drop pod).gone.length := by
    have hn : (pod :: s.gone).Nodup := by
      refine List.nodup_cons.2 ⟨fun hx => (mem_gone.1 hx).2 h2, h.all.filter _⟩
    refine length_le hn (fun x hx => ?_)
    rcases List.mem_cons.1 hx with rfl | hx
    · exact mem_gone.2 ⟨h1, fun hm => ((hmem _).1 hm).1 rfl⟩
    · exact mem_gone.2 ⟨(mem_gone.1 hx).1, fun hm => (mem_gone.1 hx).2 ((hmem _).1 hm).2⟩
  refine ⟨⟨h.placed, h.all, h.tidy, nodup_sDel h.pods, ?_, ?_, ?_, h.nodup, ?_, ?_, h.bad, h.calm, h.wake⟩, hg⟩
  · intro p hp
    have hp' : p ≠ pod ∧ p ∉ s.news := by
      have : p ∉ sAdd s.news pod := hp
      rw [mem_sAdd] at this
      exact ⟨fun x => this (Or.inl x), fun x => this (Or.inr x)⟩
    obtain ⟨a, b⟩ := h.truth p hp'.2
    exact ⟨fun hm => a ((hmem p).1 hm).2, fun hm => b (fun x => hm ((hmem p).2 ⟨hp'.1, x⟩))⟩
  · exact fun p hm => h.blank p ((hmem p).1 hm).2
  · exact fun p hp hm => h.known p hp ((hmem p).1 hm).2
  · have := h.creates
    have e : (s.drop pod).openCreates = s.openCreates := rfl
    have e' : (s.drop pod).info = s.info := rfl
    have : s.unseen.length ≤ (s.drop pod).unseen.length := by
      refine length_le (h.pods.filter _) (fun x hx => ?_)
      have hx' := mem_unseen.1 hx
      refine mem_unseen.2 ⟨(hmem x).2 ⟨fun e => hx'.2 (e ▸ h1), hx'.1⟩, hx'.2⟩
    rw [e, e']; omega
  · have := h.deletes
    have e : (s.drop pod).targets = s.targets := rfl
    have e' : (s.drop pod).info = s.info := rfl
    rw [e, e']; omega

private theorem update_nodup {i : Info} (h : i.all.Nodup) (kind : Kind) (pod : Str) :
    (i.update kind pod).1.all.Nodup := by
  unfold Info.update
  dsimp only
  by_cases hp : pod ∈ i.all
  · rw [if_pos hp]; exact h
  · rw [if_neg hp]
    unfold sAdd
    dsimp only
    rw [if_neg hp]
    refine List.nodup_append.2 ⟨h, by simp, ?_⟩
    intro a ha b hb e
    rw [List.mem_singleton] at hb
    subst hb; subst e; exact hp ha

private theorem update_counts (i : Info) (kind : Kind) (pod : Str) :
    (i.update kind pod).1.creates = (if pod ∈ i.all then i.creates else i.creates - 1) ∧
    (i.update kind pod).1.deletes = i.deletes := by
  unfold Info.update
  dsimp only
  by_cases hp : pod ∈ i.all
  · rw [if_pos hp, if_pos hp]; exact ⟨rfl, rfl⟩
  · rw [if_neg hp, if_neg hp]; exact ⟨rfl, rfl⟩

/-- A wake-up that did not come. -/
private theorem not_triggered {i : Info} {now : Rat} (h : i.shouldTrigger now = false) : i.fulfilled = false := by
  unfold Info.shouldTrigger at h
  exact (Bool.or_eq_false_iff.1 h).1

/-- A pod is shown. -/
private theorem held_note {s : Crew} {f : Str → Option Kind} (h : Held order s f) {pod : Str} {kind : Kind}
    (now : Rat) (hn : pod ∈ s.news) (hb : pod ∈ s.pods → s.state pod ≠ none) :
    Held order (s.note pod kind now) (fun n => if n = pod then some kind else f n) := by
  have hc := update_counts s.info kind pod
  have hall : ∀ n, n ∈ (s.note pod kind now).info.all ↔ n = pod ∨ n ∈ s.info.all :=
    fun n => mem_update_all s.info kind pod n
  refine ⟨placed_update h.placed kind pod, update_nodup h.all kind pod, tidy_update h.tidy kind pod, h.pods, ?_, ?_,
    ?_, h.nodup, ?_, ?_, h.bad, h.calm, ?_⟩
  · intro p hp
    have hne : p ≠ pod := fun e => hp (e ▸ hn)
    simp only [if_neg hne]
    exact h.truth p hp
  · intro p hm hs
    have hne : p ≠ pod := by
      rintro rfl
      exact hb hm hs
    simp only [if_neg hne]
    exact h.blank p hm hs
  · exact fun p hp hm => (hall p).2 (Or.inr (h.known p hp hm))
  · have h1 := h.creates
    have e : (s.note pod kind now).openCreates = s.openCreates := rfl
    have e' : (s.note pod kind now).info.creates = (if pod ∈ s.info.all then s.info.creates else s.info.creates - 1) := hc.1
    rw [e, e']
    by_cases hp : pod ∈ s.info.all
    · rw [if_pos hp]
      have : s.unseen.length ≤ (s.note pod kind now).unseen.length := by
        refine length_le (h.pods.filter _) (fun x hx => ?_)
        have hx' := mem_unseen.1 hx
        refine mem_unseen.2 ⟨hx'.1, fun hm => ?_⟩
        rcases (hall x).1 hm with hm | hm
        · exact hx'.2 (hm ▸ hp)
        · exact hx'.2 hm
      omega
    · rw [if_neg hp]
      have : s.unseen.length ≤ (pod :: (s.note pod kind now).unseen).length := by
        refine length_le (h.pods.filter _) (fun x hx => ?_)
        have hx' := mem_unseen.1 hx
        by_cases e : x = pod
        · subst e; exact List.mem_cons_self ..
        · refine List.mem_cons_of_mem _ (mem_unseen.2 ⟨hx'.1, fun hm => ?_⟩)
          rcases (hall x).1 hm with hm | hm
          · exact e hm
          · exact hx'.2 hm
      rw [List.length_cons] at this
      omega
  · have h1 := h.deletes
    have e : (s.note pod kind now).targets = s.targets := rfl
    have e' : (s.note pod kind now).info.deletes = s.info.deletes := hc.2
    rw [e, e']
    have : s.gone.length ≤ (s.note pod kind now).gone.length := by
      refine length_le (h.all.filter _) (fun x hx => ?_)
      have hx' := mem_gone.1 hx
      exact mem_gone.2 ⟨(hall x).2 (Or.inr hx'.1), hx'.2⟩
    omega
  · intro q _ _
    exact Or.inl (not_triggered (Bool.or_eq_false_iff.1 q).2)

/-- The deletion of a pod is shown. -/
private theorem held_forget {s : Crew} {f : Str → Option Kind} (h : Held order s f) {pod : Str}
    (now : Rat) (hn : pod ∈ s.news) (hp : pod ∉ s.pods) :
    Held order (s.forget pod now) (fun n => if n = pod then none else f n) := by
  have hall : ∀ n, n ∈ (s.forget pod now).info.all ↔ n ≠ pod ∧ n ∈ s.info.all := by
    intro n
    show n ∈ (s.info.deleted pod).all ↔ _
    unfold Info.deleted
    by_cases hm : pod ∈ s.info.all
    · rw [if_pos hm]; exact mem_sDel
    · rw [if_neg hm]
      exact ⟨fun x => ⟨fun e => hm (e ▸ x), x⟩, fun x => x.2⟩
  have hnd : (s.info.deleted pod).all.Nodup := by
    unfold Info.deleted
    split
    · exact nodup_sDel h.all
    · exact h.all
  refine ⟨placed_deleted h.placed pod, hnd, tidy_deleted h.tidy pod, h.pods, ?_, ?_,
    ?_, h.nodup, ?_, ?_, h.bad, h.calm, ?_⟩
  · intro p hp'
    have hne : p ≠ pod := fun e => hp' (e ▸ hn)
    simp only [if_neg hne]
    exact h.truth p hp'
  · intro p hm hs
    have hne : p ≠ pod := fun e => hp (e ▸ hm)
    simp only [if_neg hne]
    exact h.blank p hm hs
  · exact fun p hp' hm => (hall p).2 ⟨fun e => hp (e ▸ hm), h.known p hp' hm⟩
  · have h1 := h.creates
    have e : (s.forget pod now).openCreates = s.openCreates := rfl
    have e' : (s.forget pod now).info.creates = s.info.creates := by
      show (s.info.deleted pod).creates = _
      unfold Info.deleted; split <;> rfl
    rw [e, e']
    have : s.unseen.length ≤ (s.forget pod now).unseen.length := by
      refine length_le (h.pods.filter _) (fun x hx => ?_)
      have hx' := mem_unseen.1 hx
      exact mem_unseen.2 ⟨hx'.1, fun hm => hx'.2 ((hall x).1 hm).2⟩
    omega
  · have h1 := h.deletes
    have e : (s.forget pod now).targets = s.targets := rfl
    rw [e]
    show (s.info.deleted pod).deletes ≤ _
    by_cases hm : pod ∈ s.info.all
    · have : s.gone.length ≤ (pod :: (s.forget pod now).gone).length := by
        refine length_le (h.all.filter _) (fun x hx => ?_)
        have hx' := mem_gone.1 hx
        by_cases e : x = pod
        · subst e; exact List.mem_cons_self ..
        · exact List.mem_cons_of_mem _ (mem_gone.2 ⟨(hall x).2 ⟨e, hx'.1⟩, hx'.2⟩)
      rw [List.length_cons] at this
      unfold Info.deleted
      rw [if_pos hm]
      dsimp only
      omega
    · have : s.gone.length ≤ (s.forget pod now).gone.length := by
        refine length_le (h.all.filter _) (fun x hx => ?_)
        have hx' := mem_gone.1 hx
        exact mem_gone.2 ⟨(hall x).2 ⟨fun e => hm (e ▸ hx'.1), hx'.1⟩, hx'.2⟩
      unfold Info.deleted
      rw [if_neg hm]
      omega
  · intro q _ _
    exact Or.inl (not_triggered (Bool.or_eq_false_iff.1 q).2)

/-- Expectations, the task and the queue change. -/
private theorem held_work {s : Crew} {f : Str → Option Kind} (h : Held order s f) (c d : Int) (stamp : Rat)
    (task : Option Task) (failed queued timer : Bool)
    {t : Crew} (e : t = { s with
      info := { s.info with creates := c, deletes := d, stamp := stamp }
      task := task, failed := failed, queued := queued, timer := timer })
    (hk : ∀ p ∈ t.targets, p ∈ s.pods → p ∈ s.info.all) (hn : t.targets.Nodup)
    (hc : c ≤ t.openCreates + s.unseen.length) (hd : d ≤ t.targets.length + s.gone.length)
    (hb : ∀ t, task = some t → t.bad = true → failed = true) (hz : task = none → failed = false)
    (hw : queued = false → timer = false → failed = false →
      t.info.fulfilled = false ∨ (task = none ∧ Balanced order t.info s.shown)) : Held order t f := by
  subst e
  refine ⟨h.placed, h.all, ⟨h.tidy.nodup, h.tidy.disjoint⟩, h.pods, h.truth, h.blank, hk, hn, ?_, ?_, hb, hz, hw⟩
  · exact hc
  · exact hd

private theorem mem_sets_all {i : Info} {f : Str → Option Kind} (h : Placed i f) {k : Kind} {p : Str}
    (hp : p ∈ i.sets k) : p ∈ i.all := (h p).1.2 (by rw [((h p).2 k).1 hp]; rfl)

private theorem mem_pySlice {l : List Str} {n : Int} {x : Str} (h : x ∈ pySlice l n) : x ∈ l := by
  unfold pySlice at h
  split at h <;> exact List.mem_of_mem_take h

private theorem nodup_pySlice {l : List Str} {n : Int} (h : l.Nodup) : (pySlice l n).Nodup := by
  unfold pySlice
  split
  · exact h.sublist (List.take_sublist ..)
  · exact h.sublist (List.take_sublist ..)

private theorem nodup_stopped {i : Info} (h : i.Tidy) : (sUnion (i.sets .succeeded) (i.sets .failed)).Nodup := by
  unfold sUnion
  refine List.nodup_append.2 ⟨h.nodup _, (h.nodup _).filter _, ?_⟩
  intro a ha b hb e
  subst e
  exact absurd ha (by simpa using (List.mem_filter.1 hb).2)

private theorem mem_stopped {i : Info} {p : Str} (h : p ∈ sUnion (i.sets .succeeded) (i.sets .failed)) :
    p ∈ i.sets .succeeded ∨ p ∈ i.sets .failed := mem_sUnion.1 h

private theorem nodup_down {i : Info} {f : Str → Option Kind} (hp : Placed i f) (h : i.Tidy)
    (ho : ∀ l, (order l).Perm l) (n : Int) :
    (pySlice (order (i.sets .pending)) n ++ sUnion (i.sets .succeeded) (i.sets .failed)).Nodup := by
  refine List.nodup_append.2 ⟨nodup_pySlice ((ho _).nodup_iff.2 (h.nodup _)), nodup_stopped h, ?_⟩
  intro a ha b hb e
  subst e
  have h1 := ((hp a).2 _).1 ((ho _).mem_iff.1 (mem_pySlice ha))
  rcases mem_stopped hb with hb | hb
  · have h2 := ((hp a).2 _).1 hb
    rw [h1] at h2; cases h2
  · have h2 := ((hp a).2 _).1 hb
    rw [h1] at h2; cases h2

/-- A reconciliation starts. -/
private theorem held_begin {s : Crew} {f : Str → Option Kind} (h : Held order s f) (ho : ∀ l, (order l).Perm l)
    (now : Rat) : Held order (s.begin order now) f := by
  unfold Crew.begin
  by_cases hq : s.queued = true ∧ s.task = none
  · rw [if_pos hq]
    have hf : s.failed = false := h.calm hq.2
    have ht : s.targets = [] := by unfold Crew.targets; rw [hq.2]
    have hoc : s.openCreates = 0 := by unfold Crew.openCreates; rw [hq.2]
    have hc := h.creates
    have hd := h.deletes
    have same : s.info.fulfilled = false ∨ (s.task = none ∧ Balanced order s.info s.shown) →
        Held order { s with queued := false } f := by
      intro hw
      refine ⟨h.placed, h.all, h.tidy, h.pods, h.truth, h.blank, h.known, h.nodup, h.creates, h.deletes, h.bad,
        h.calm, fun _ _ _ => hw⟩
    unfold Info.plan
    by_cases h1 : s.info.shouldTrigger now = true
    · rw [if_pos h1]
      by_cases h2 : s.info.delta s.shown > 0
      · rw [if_pos h2]
        dsimp only
        refine held_work h (s.info.delta s.shown).toNat (sUnion (s.info.sets .succeeded) (s.info.sets .failed)).length
          now _ s.failed false s.timer rfl ?_ ?_ ?_ ?_ ?_ ?_ ?_
        · intro p hp _
          rcases mem_stopped (by simpa [Crew.targets] using hp) with hp | hp
          · exact mem_sets_all h.placed hp
          · exact mem_sets_all h.placed hp
        · simpa [Crew.targets] using nodup_stopped h.tidy
        · simp only [Crew.openCreates]; omega
        · simp only [Crew.targets, List.nil_append]; omega
        · intro t e hb; cases e; cases hb
        · intro e; cases e
        · intro _ _ _
          refine Or.inl ?_
          unfold Info.fulfilled Info.expect
          rw [decide_eq_false_iff_not]
          dsimp only
          omega
      · rw [if_neg h2]
        dsimp only
        by_cases h3 : pySlice (order (s.info.sets .pending)) (s.info.delta s.shown) ++
            sUnion (s.info.sets .succeeded) (s.info.sets .failed) = []
        · rw [if_pos h3]
          exact same (Or.inr ⟨hq.2, by omega, h3⟩)
        · rw [if_neg h3]
          have hl := List.length_pos_iff.2 h3
          have hnd := nodup_down (n := s.info.delta s.shown) h.placed h.tidy ho
          have hm : ∀ p, p ∈ pySlice (order (s.info.sets .pending)) (s.info.delta s.shown) ++
            sUnion (s.info.sets .succeeded) (s.info.sets .failed) → p ∈ s.info.all := by
            intro p hp
            rcases List.mem_append.1 hp with hp | hp
            · exact mem_sets_all h.placed ((ho _).mem_iff.1 (mem_pySlice hp))
            · rcases mem_stopped hp with hp | hp
              · exact mem_sets_all h.placed hp
              · exact mem_sets_all h.placed hp
          generalize pySlice (order (s.info.sets .pending)) (s.info.delta s.shown) ++
            sUnion (s.info.sets .succeeded) (s.info.sets .failed) = del at hl hnd hm ⊢
          refine held_work h 0 del.length now _ s.failed false s.timer rfl ?_ ?_ ?_ ?_ ?_ ?_ ?_
          · intro p hp _
            exact hm p (by simpa [Crew.targets] using hp)
          · simpa [Crew.targets] using hnd
          · simp only [Crew.openCreates]; omega
          · simp only [Crew.targets, List.nil_append]; omega
          · intro t e hb; cases e; cases hb
          · intro e; cases e
          · intro _ _ _
            refine Or.inl ?_
            unfold Info.fulfilled Info.expect
            rw [decide_eq_false_iff_not]
            dsimp only
            omega
    · rw [if_neg h1]
      exact same (Or.inl (not_triggered (by simpa using h1)))
  · rw [if_neg hq]; exact h

/-- The next batch. -/
private theorem held_nextBatch {s : Crew} {f : Str → Option Kind} (h : Held order s f) :
    Held order s.nextBatch f := by
  have hc := h.creates
  have hd := h.deletes
  have hk := h.known
  have hn := h.nodup
  have hw := h.wake
  unfold Crew.nextBatch
  cases ht : s.task with
  | none => exact h
  | some t =>
    dsimp only
    have e1 : s.openCreates = t.inflight + t.todo := by unfold Crew.openCreates; rw [ht]
    have e2 : s.targets = t.deleting ++ t.del := by unfold Crew.targets; rw [ht]
    rw [e1] at hc
    rw [e2] at hd hk hn
    rw [ht] at hw
    have hw' : s.queued = false → s.timer = false → s.failed = false → s.info.fulfilled = false := by
      intro a b c
      rcases hw a b c with x | x
      · exact x
      · exact absurd x.1 (by simp)
    by_cases h1 : t.inflight = 0
    · rw [if_pos h1]
      by_cases h2 : t.bad = true
      · rw [if_pos h2]
        have hf := h.bad t ht h2
        refine held_work h (s.info.creates - t.todo) s.info.deletes s.info.stamp _ s.failed s.queued s.timer rfl ?_ ?_
          ?_ ?_ ?_ ?_ ?_
        · exact hk
        · exact hn
        · simp only [Crew.openCreates]; omega
        · exact hd
        · intro _ _ _; exact hf
        · intro e; cases e
        · intro _ _ e; rw [hf] at e; cases e
      · rw [if_neg h2]
        by_cases h3 : 0 < t.todo
        · rw [if_pos h3]
          refine held_work h s.info.creates s.info.deletes s.info.stamp _ s.failed s.queued s.timer rfl ?_ ?_
            ?_ ?_ ?_ ?_ ?_
          · exact hk
          · exact hn
          · simp only [Crew.openCreates]; omega
          · exact hd
          · intro t' e hb; cases e; exact absurd hb h2
          · intro e; cases e
          · exact fun a b c => Or.inl (hw' a b c)
        · rw [if_neg h3]
          refine held_work h s.info.creates s.info.deletes s.info.stamp _ s.failed s.queued s.timer rfl ?_ ?_
            ?_ ?_ ?_ ?_ ?_
          · simpa [Crew.targets] using hk
          · simpa [Crew.targets] using hn
          · simp only [Crew.openCreates]; omega
          · simpa [Crew.targets] using hd
          · intro t' e hb; cases e; exact absurd hb h2
          · intro e; cases e
          · exact fun a b c => Or.inl (hw' a b c)
    · rw [if_neg h1]; exact h

/-- With a task, there is nothing to wake up for. -/
private theorem busy {s : Crew} {f : Str → Option Kind} (h : Held order s f) {t : Task} (ht : s.task = some t)
    (a : s.queued = false) (b : s.timer = false) (c : s.failed = false) : s.info.fulfilled = false := by
  rcases h.wake a b c with x | x
  · exact x
  · rw [ht] at x; exact absurd x.1 (by simp)

private theorem not_target {s : Crew} {t : Task} {pod : Str} (ht : s.task = some t) (h : s.Unused t pod) :
    pod ∉ s.targets := by
  unfold Crew.targets
  rw [ht]
  intro x
  rcases List.mem_append.1 x with x | x
  · exact h.2.2.2.2 x
  · exact h.2.2.2.1 x

private theorem held_created {s : Crew} {f : Str → Option Kind} (h : Held order s f) (pod : Str) :
    Held order (s.created pod) f := by
  unfold Crew.created
  cases ht : s.task with
  | none => exact h
  | some t =>
    dsimp only
    by_cases hi : 0 < t.inflight ∧ s.Unused t pod
    · rw [if_pos hi]
      obtain ⟨ha, hu⟩ := held_add h hi.2.1 hi.2.2.1 (not_target ht hi.2)
      have hc := h.creates
      have e1 : s.openCreates = t.inflight + t.todo := by unfold Crew.openCreates; rw [ht]
      have ht' : (s.add pod).task = some t := ht
      have e2 : (s.add pod).targets = t.deleting ++ t.del := by unfold Crew.targets; rw [ht']
      have hk := ha.known
      have hn := ha.nodup
      have hd := ha.deletes
      rw [e2] at hk hn hd
      refine held_work ha s.info.creates s.info.deletes s.info.stamp _ s.failed s.queued s.timer rfl hk hn ?_ hd
        ?_ ?_ ?_
      · simp only [Crew.openCreates]; omega
      · intro t' e hb; cases e; exact h.bad t ht hb
      · intro e; cases e
      · have hb := busy h ht
        exact fun a b c => Or.inl (hb a b c)
    · rw [if_neg hi]; exact h

/-- A creation that failed, as the controller sees it. -/
private theorem held_noCreate {s : Crew} {f : Str → Option Kind} (h : Held order s f) {t : Task}
    (ht : s.task = some t) (hi : 0 < t.inflight) : Held order (s.noCreate t) f := by
  have hc := h.creates
  have hk := h.known
  have hn := h.nodup
  have hd := h.deletes
  have e1 : s.openCreates = t.inflight + t.todo := by unfold Crew.openCreates; rw [ht]
  have e2 : s.targets = t.deleting ++ t.del := by unfold Crew.targets; rw [ht]
  rw [e2] at hk hn hd
  refine held_work h (s.info.creates - 1) s.info.deletes s.info.stamp _ true s.queued s.timer rfl hk hn ?_ hd
    ?_ ?_ ?_
  · simp only [Crew.openCreates, Crew.noCreate]; omega
  · intro _ _ _; rfl
  · intro e; cases e
  · intro _ _ e; cases e

private theorem held_createFailed {s : Crew} {f : Str → Option Kind} (h : Held order s f) :
    Held order s.createFailed f := by
  unfold Crew.createFailed
  cases ht : s.task with
  | none => exact h
  | some t =>
    dsimp only
    by_cases hi : 0 < t.inflight
    · rw [if_pos hi]; exact held_noCreate h ht hi
    · rw [if_neg hi]; exact h

private theorem held_createLost {s : Crew} {f : Str → Option Kind} (h : Held order s f) (pod : Str) :
    Held order (s.createLost pod) f := by
  unfold Crew.createLost
  cases ht : s.task with
  | none => exact h
  | some t =>
    dsimp only
    by_cases hi : 0 < t.inflight ∧ s.Unused t pod
    · rw [if_pos hi]
      exact held_noCreate (held_add h hi.2.1 hi.2.2.1 (not_target ht hi.2)).1 ht hi.1
    · rw [if_neg hi]; exact h

private theorem targets_sDel {t : Task} {pod : Str} (hn : (t.deleting ++ t.del).Nodup) (hp : pod ∈ t.deleting) :
    (sDel t.deleting pod ++ t.del).Nodup ∧ (sDel t.deleting pod ++ t.del).length + 1 = (t.deleting ++ t.del).length ∧
    ∀ x ∈ sDel t.deleting pod ++ t.del, x ∈ t.deleting ++ t.del := by
  obtain ⟨a, b, c⟩ := List.nodup_append.1 hn
  refine ⟨List.nodup_append.2 ⟨nodup_sDel a, b, fun x hx y hy => c x (mem_sDel.1 hx).2 y hy⟩, ?_, ?_⟩
  · have := length_sDel a hp
    rw [List.length_append, List.length_append]; omega
  · intro x hx
    rcases List.mem_append.1 hx with hx | hx
    · exact List.mem_append.2 (Or.inl (mem_sDel.1 hx).2)
    · exact List.mem_append.2 (Or.inr hx)

private theorem held_deleted {s : Crew} {f : Str → Option Kind} (h : Held order s f) (pod : Str) :
    Held order (s.deleted pod) f := by
  unfold Crew.deleted
  cases ht : s.task with
  | none => exact h
  | some t =>
    dsimp only
    by_cases hi : pod ∈ t.deleting ∧ pod ∈ s.pods
    · rw [if_pos hi]
      have e2 : s.targets = t.deleting ++ t.del := by unfold Crew.targets; rw [ht]
      have hn := h.nodup
      have hd := h.deletes
      rw [e2] at hn hd
      have hin : pod ∈ s.info.all := h.known pod (by rw [e2]; exact List.mem_append.2 (Or.inl hi.1)) hi.2
      obtain ⟨ha, hg⟩ := held_drop h hin hi.2
      obtain ⟨n1, n2, n3⟩ := targets_sDel hn hi.1
      have hc := ha.creates
      have ht' : (s.drop pod).task = some t := ht
      have e1 : (s.drop pod).openCreates = t.inflight + t.todo := by unfold Crew.openCreates; rw [ht']
      have e3 : (s.drop pod).targets = t.deleting ++ t.del := by unfold Crew.targets; rw [ht']
      have hk := ha.known
      rw [e1] at hc
      rw [e3] at hk
      refine held_work ha s.info.creates s.info.deletes s.info.stamp _ s.failed s.queued s.timer rfl
        (fun p hp => hk p (n3 p hp)) n1 hc ?_ ?_ ?_ ?_
      · simp only [Crew.targets]; omega
      · intro t' e hb; cases e; exact h.bad t ht hb
      · intro e; cases e
      · have hb := busy h ht
        exact fun a b c => Or.inl (hb a b c)
    · rw [if_neg hi]; exact h

/-- A deletion that failed, as the controller sees it. -/
private theorem held_noDelete {s : Crew} {f : Str → Option Kind} (h : Held order s f) {t : Task} {pod : Str}
    (ht : s.task = some t) (hi : pod ∈ t.deleting) : Held order (s.noDelete t pod) f := by
  have e2 : s.targets = t.deleting ++ t.del := by unfold Crew.targets; rw [ht]
  have e1 : s.openCreates = t.inflight + t.todo := by unfold Crew.openCreates; rw [ht]
  have hn := h.nodup
  have hd := h.deletes
  have hk := h.known
  have hc := h.creates
  rw [e2] at hn hd hk
  rw [e1] at hc
  obtain ⟨n1, n2, n3⟩ := targets_sDel hn hi
  refine held_work h s.info.creates (s.info.deletes - 1) s.info.stamp _ true s.queued s.timer rfl
    (fun p hp => hk p (n3 p hp)) n1 hc ?_ ?_ ?_ ?_
  · simp only [Crew.targets, Crew.noDelete]; omega
  · intro _ _ _; rfl
  · intro e; cases e
  · intro _ _ e; cases e

private theorem held_deleteFailed {s : Crew} {f : Str → Option Kind} (h : Held order s f) (pod : Str) :
    Held order (s.deleteFailed pod) f := by
  unfold Crew.deleteFailed
  cases ht : s.task with
  | none => exact h
  | some t =>
    dsimp only
    by_cases hi : pod ∈ t.deleting
    · rw [if_pos hi]; exact held_noDelete h ht hi
    · rw [if_neg hi]; exact h

private theorem held_deleteLost {s : Crew} {f : Str → Option Kind} (h : Held order s f) (pod : Str) :
    Held order (s.deleteLost pod) f := by
  unfold Crew.deleteLost
  cases ht : s.task with
  | none => exact h
  | some t =>
    dsimp only
    by_cases hi : pod ∈ t.deleting ∧ pod ∈ s.pods
    · rw [if_pos hi]
      have e2 : s.targets = t.deleting ++ t.del := by unfold Crew.targets; rw [ht]
      have hin : pod ∈ s.info.all := h.known pod (by rw [e2]; exact List.mem_append.2 (Or.inl hi.1)) hi.2
      exact held_noDelete (held_drop h hin hi.2).1 ht hi.1
    · rw [if_neg hi]; exact h

private theorem held_finish {s : Crew} {f : Str → Option Kind} (h : Held order s f) : Held order s.finish f := by
  unfold Crew.finish
  cases ht : s.task with
  | none => exact h
  | some t =>
    dsimp only
    by_cases hi : t.inflight = 0 ∧ t.bad = false ∧ t.todo = 0 ∧ t.del = [] ∧ t.deleting = []
    · rw [if_pos hi]
      have e2 : s.targets = t.deleting ++ t.del := by unfold Crew.targets; rw [ht]
      have e1 : s.openCreates = t.inflight + t.todo := by unfold Crew.openCreates; rw [ht]
      have hd := h.deletes
      have hc := h.creates
      rw [e2, hi.2.2.2.1, hi.2.2.2.2] at hd
      rw [e1, hi.1, hi.2.2.1] at hc
      refine held_work h s.info.creates s.info.deletes s.info.stamp none false s.queued (s.timer || s.failed) rfl
        (fun p hp => (by cases hp)) List.nodup_nil hc hd (fun t e => (by cases e)) (fun _ => rfl) ?_
      intro a b _
      have b := Bool.or_eq_false_iff.1 b
      have hb := busy h ht a b.1 b.2
      exact Or.inl hb
    · rw [if_neg hi]; exact h

private theorem held_turn {s : Crew} {f : Str → Option Kind} (h : Held order s f) (pod : Str) (kind : Kind) :
    Held order (s.turn pod kind) f := by
  unfold Crew.turn
  by_cases hp : pod ∈ s.pods
  · rw [if_pos hp]
    refine ⟨h.placed, h.all, h.tidy, h.pods, ?_, ?_, h.known, h.nodup, h.creates, h.deletes, h.bad, h.calm, h.wake⟩
    · intro p hn
      have hn' : p ≠ pod ∧ p ∉ s.news := by
        have : p ∉ sAdd s.news pod := hn
        rw [mem_sAdd] at this
        exact ⟨fun x => this (Or.inl x), fun x => this (Or.inr x)⟩
      dsimp only
      rw [if_neg hn'.1]
      exact h.truth p hn'.2
    · intro p hm hs
      have hs : (if p = pod then some kind else s.state p) = none := hs
      by_cases e : p = pod
      · rw [if_pos e] at hs; cases hs
      · rw [if_neg e] at hs; exact h.blank p hm hs
  · rw [if_neg hp]; exact h

/-- The informer has shown all there is about a pod. -/
private theorem held_read {s : Crew} {f : Str → Option Kind} (h : Held order s f) {pod : Str}
    (h1 : pod ∈ s.pods → f pod = s.state pod) (h2 : pod ∉ s.pods → f pod = none) :
    Held order { s with news := sDel s.news pod } f := by
  refine ⟨h.placed, h.all, h.tidy, h.pods, ?_, h.blank, h.known, h.nodup, h.creates, h.deletes, h.bad, h.calm, h.wake⟩
  intro p hp
  by_cases e : p = pod
  · subst e; exact ⟨h1, h2⟩
  · exact h.truth p (fun x => hp (mem_sDel.2 ⟨e, x⟩))

private theorem held_showPod {s : Crew} {f : Str → Option Kind} (h : Held order s f) (pod : Str) (now : Rat) :
    ∃ f, Held order (s.showPod pod now) f := by
  unfold Crew.showPod
  by_cases hn : pod ∈ s.news
  · rw [if_pos hn]
    by_cases hp : pod ∈ s.pods
    · rw [if_pos hp]
      cases hs : s.state pod with
      | some kind =>
        refine ⟨_, held_read (s := s.note pod kind now) (held_note h now hn (fun _ => by rw [hs]; simp)) ?_ ?_⟩
        · intro _; rw [if_pos rfl]; exact hs.symm
        · exact fun x => absurd hp x
      | none => exact ⟨f, held_read h (fun _ => by rw [hs]; exact h.blank pod hp hs) (fun x => absurd hp x)⟩
    · rw [if_neg hp]
      refine ⟨_, held_read (s := s.forget pod now) (held_forget h now hn hp) ?_ ?_⟩
      · exact fun x => absurd x hp
      · intro _; rw [if_pos rfl]
  · rw [if_neg hn]; exact ⟨f, h⟩

private theorem noteAll_placed (state : Str → Option Kind) (l : List Str) (i : Info) (f : Str → Option Kind)
    (hp : Placed i f) (ha : i.all.Nodup) (ht : i.Tidy) :
    ∃ g, Placed (noteAll state l i) g ∧ (noteAll state l i).all.Nodup ∧ (noteAll state l i).Tidy ∧
      (∀ p, p ∉ l → g p = f p) ∧ (∀ p, p ∈ l → state p = none → g p = f p) ∧
      (∀ p, p ∈ l → state p ≠ none → g p = state p) ∧
      (noteAll state l i).creates ≤ i.creates ∧ (noteAll state l i).deletes = i.deletes := by
  induction l generalizing i f with
  | nil =>
    exact ⟨f, hp, ha, ht, fun _ _ => rfl, fun _ _ _ => rfl, fun p h => (by cases h), Int.le_refl _, rfl⟩
  | cons q l ih =>
    unfold noteAll
    cases hs : state q with
    | none =>
      obtain ⟨g, a, b, c, d, e, k, u, v⟩ := ih i f hp ha ht
      refine ⟨g, a, b, c, fun p hm => d p (fun x => hm (List.mem_cons_of_mem _ x)), ?_, ?_, u, v⟩
      · intro p hm hn
        by_cases hq : p ∈ l
        · exact e p hq hn
        · exact d p hq
      · intro p hm hn
        rcases List.mem_cons.1 hm with rfl | hm
        · exact absurd hs hn
        · exact k p hm hn
    | some kind =>
      have hcnt := update_counts i kind q
      obtain ⟨g, a, b, c, d, e, k, u, v⟩ := ih (i.update kind q).1 _ (placed_update hp kind q)
        (update_nodup ha kind q) (tidy_update ht kind q)
      refine ⟨g, a, b, c, ?_, ?_, ?_, ?_, v.trans hcnt.2⟩
      · intro p hm
        rw [d p (fun x => hm (List.mem_cons_of_mem _ x)), if_neg (fun (x : p = q) => hm (by rw [x]; exact List.mem_cons_self ..))]
      · intro p hm hn
        have hne : p ≠ q := by rintro rfl; rw [hs] at hn; cases hn
        have hm := (List.mem_cons.1 hm).resolve_left hne
        rw [e p hm hn, if_neg hne]
      · intro p hm hn
        by_cases hq : p ∈ l
        · exact k p hq hn
        · have : p = q := (List.mem_cons.1 hm).resolve_right hq
          subst this
          rw [d p hq, if_pos rfl, hs]
      · refine Int.le_trans u ?_
        rw [hcnt.1]; split <;> omega

private theorem held_restart {s : Crew} {f : Str → Option Kind} (h : Held order s f) (now : Rat) :
    ∃ f, Held order (s.restart now) f := by
  obtain ⟨g, a, b, c, d, e, k, u, v⟩ := noteAll_placed s.state s.pods (.init now) (fun _ => none)
    (held_init order now).placed (held_init order now).all (held_init order now).tidy
  refine ⟨g, a, b, c, h.pods, ?_, ?_, ?_, List.nodup_nil, ?_, ?_, ?_, fun _ => rfl, ?_⟩
  · intro p _
    refine ⟨fun hm => ?_, fun hm => d p hm⟩
    show g p = s.state p
    cases hs : s.state p with
    | none => exact e p hm hs
    | some x => rw [k p hm (by rw [hs]; simp), hs]
  · exact fun p hm hs => e p hm hs
  · intro p hp; cases hp
  · have : (Info.init now).creates = 0 := rfl
    show (noteAll s.state s.pods (.init now)).creates ≤ _
    omega
  · have : (Info.init now).deletes = 0 := rfl
    show (noteAll s.state s.pods (.init now)).deletes ≤ _
    omega
  · intro t e; cases e
  · intro e; cases e

private theorem held_step {s : Crew} {f : Str → Option Kind} (h : Held order s f) (ho : ∀ l, (order l).Perm l)
    (op : CrewOp) (ha : Acquainted s op) : ∃ f, Held order (s.step order op) f := by
  cases op with
  | ask n => exact ⟨f, held_frame h rfl rfl rfl rfl rfl rfl (fun a b => ⟨a, b, rfl⟩)⟩
  | «show» => exact ⟨f, held_frame h rfl rfl rfl rfl rfl rfl (fun a b => (by cases a))⟩
  | begin now => exact ⟨f, held_begin h ho now⟩
  | nextBatch => exact ⟨f, held_nextBatch h⟩
  | created pod => exact ⟨f, held_created h pod⟩
  | createLost pod => exact ⟨f, held_createLost h pod⟩
  | createFailed => exact ⟨f, held_createFailed h⟩
  | deleted pod => exact ⟨f, held_deleted h pod⟩
  | deleteLost pod => exact ⟨f, held_deleteLost h pod⟩
  | deleteFailed pod => exact ⟨f, held_deleteFailed h pod⟩
  | finish => exact ⟨f, held_finish h⟩
  | fire =>
    refine ⟨f, ?_⟩
    show Held order s.fire f
    unfold Crew.fire
    by_cases ht : s.timer = true
    · rw [if_pos ht]; exact held_frame h rfl rfl rfl rfl rfl rfl (fun a b => (by cases a))
    · rw [if_neg ht]; exact h
  | turn pod kind => exact ⟨f, held_turn h pod kind⟩
  | lost pod =>
    refine ⟨f, ?_⟩
    show Held order (s.lost pod) f
    unfold Crew.lost
    by_cases hp : pod ∈ s.pods
    · rw [if_pos hp]; exact (held_drop h ha hp).1
    · rw [if_neg hp]; exact h
  | showOld pod kind now =>
    show ∃ f, Held order (s.showOld pod kind now) f
    unfold Crew.showOld
    by_cases hp : pod ∈ s.news ∧ (pod ∈ s.pods → s.state pod ≠ none)
    · rw [if_pos hp]; exact ⟨_, held_note h now hp.1 hp.2⟩
    · rw [if_neg hp]; exact ⟨f, h⟩
  | showPod pod now => exact held_showPod h pod now
  | restart now => exact held_restart h now
  | poke => exact ⟨f, held_frame h rfl rfl rfl rfl rfl rfl (fun a b => (by cases a))⟩

private theorem held_reach {s : Crew} (ho : ∀ l, (order l).Perm l) (h : CrewReach order Acquainted s) :
    ∃ f, Held order s f := by
  induction h with
  | init => exact ⟨_, held_init order _⟩
  | step _ ha ih =>
    obtain ⟨f, hf⟩ := ih
    exact held_step hf ho _ ha

/-! ### The property -/

theorem mem_workers {s : Crew} {k : Kind} {p : Str} : p ∈ s.workers k ↔ p ∈ s.pods ∧ s.state p = some k := by
  unfold Crew.workers; simp

theorem sUnion_disjoint {l m : List Str} (h : ∀ x ∈ m, x ∉ l) : sUnion l m = l ++ m := by
  unfold sUnion
  congr 1
  rw [List.filter_eq_self]
  intro x hx
  simpa using h x hx

/-- What the controller knows when no task is under way, all changes were shown, and all containers have a status. -/
theorem rested_view (ho : ∀ l, (order l).Perm l) {s : Crew} (h : CrewReach order Acquainted s) (ht : s.task = none)
    (hn : s.news = []) (hs : ∀ p ∈ s.pods, s.state p ≠ none) :
    s.pods.Nodup ∧ s.info.fulfilled = true ∧ (∀ k p, p ∈ s.info.sets k ↔ p ∈ s.workers k) ∧
    (∀ k, (s.info.sets k).length = (s.workers k).length) ∧ (∀ k, (s.info.sets k).Nodup) ∧
    ∀ n, s.info.delta n = n - ((s.workers .running).length + (s.workers .pending).length : Nat) := by
  obtain ⟨f, hf⟩ := held_reach ho h
  have htruth : ∀ p, (p ∈ s.pods → f p = s.state p) ∧ (p ∉ s.pods → f p = none) :=
    fun p => hf.truth p (by rw [hn]; exact fun x => (by cases x))
  have hall : ∀ p, p ∈ s.info.all ↔ p ∈ s.pods := by
    intro p
    rw [(hf.placed p).1]
    constructor
    · intro x
      refine Classical.byContradiction (fun hn => ?_)
      rw [(htruth p).2 hn] at x; cases x
    · intro hm
      rw [(htruth p).1 hm]
      cases hp : s.state p with
      | none => exact absurd hp (hs p hm)
      | some k => rfl
  have hsets : ∀ k p, p ∈ s.info.sets k ↔ p ∈ s.workers k := by
    intro k p
    rw [(hf.placed p).2 k, mem_workers]
    constructor
    · intro x
      have hm : p ∈ s.pods := by
        refine Classical.byContradiction (fun hn => ?_)
        rw [(htruth p).2 hn] at x; cases x
      exact ⟨hm, by rw [← (htruth p).1 hm]; exact x⟩
    · intro x
      rw [(htruth p).1 x.1]; exact x.2
  have hlen : ∀ k, (s.info.sets k).length = (s.workers k).length := by
    intro k
    refine Nat.le_antisymm (length_le (hf.tidy.nodup k) (fun p hp => (hsets k p).1 hp)) ?_
    exact length_le (hf.pods.filter _) (fun p hp => (hsets k p).2 hp)
  have hun : s.unseen = [] := by
    rw [List.eq_nil_iff_forall_not_mem]
    intro p hp
    exact (mem_unseen.1 hp).2 ((hall p).2 (mem_unseen.1 hp).1)
  have hgo : s.gone = [] := by
    rw [List.eq_nil_iff_forall_not_mem]
    intro p hp
    exact (mem_gone.1 hp).2 ((hall p).1 (mem_gone.1 hp).1)
  have hc := hf.creates
  have hd := hf.deletes
  have e1 : s.openCreates = 0 := by unfold Crew.openCreates; rw [ht]
  have e2 : s.targets = [] := by unfold Crew.targets; rw [ht]
  rw [e1, hun] at hc
  rw [e2, hgo] at hd
  have hdis : ∀ x ∈ s.info.sets .pending, x ∉ s.info.sets .running := by
    intro x hx hy
    have h1 := ((hf.placed x).2 _).1 hx
    have h2 := ((hf.placed x).2 _).1 hy
    rw [h1] at h2; cases h2
  refine ⟨hf.pods, ?_, hsets, hlen, hf.tidy.nodup, fun n => ?_⟩
  · unfold Info.fulfilled
    exact decide_eq_true ⟨by simpa using hc, by simpa using hd⟩
  · unfold Info.delta
    rw [sUnion_disjoint hdis, List.length_append, hlen, hlen]

/-- **C132 (partial).** Once nothing is left to do for the workers of a running cluster, there are at least as many
pending and running ones as were asked for, none that has ended, and more only if they run already. This is
whatever requests fail, whatever answers are lost, and whenever the controller is killed and started again; but
every worker's container has got a status, and others delete only pods that the controller has seen. -/
theorem C132_asked_workers_partial (order : List Str → List Str) (ho : ∀ l, (order l).Perm l) (s : Crew)
    (h : CrewReach order Acquainted s) (hq : s.Quiet) (hs : ∀ p ∈ s.pods, s.state p ≠ none) :
    s.replicas ≤ (s.workers .pending).length + (s.workers .running).length ∧
    s.workers .succeeded = [] ∧ s.workers .failed = [] ∧
    (s.replicas < (s.workers .pending).length + (s.workers .running).length →
      s.replicas ≤ (s.workers .running).length) := by
  obtain ⟨f, hf⟩ := held_reach ho h
  obtain ⟨-, hful, hsets, hlen, -, hdel⟩ := rested_view ho h hq.task hq.news hs
  have hbal : Balanced order s.info s.shown := by
    rcases hf.wake hq.queue hq.timer (hf.calm hq.task) with x | x
    · rw [hful] at x; cases x
    · exact x.2
  obtain ⟨b1, b2⟩ := hbal
  obtain ⟨b2, b3⟩ := List.append_eq_nil_iff.1 b2
  have hdelta : s.info.delta s.shown =
      s.replicas - ((s.workers .running).length + (s.workers .pending).length : Nat) := by
    rw [hdel, hq.cluster]
  have hend : ∀ k, k = .succeeded ∨ k = .failed → s.workers k = [] := by
    intro k hk
    rw [List.eq_nil_iff_forall_not_mem]
    intro p hp
    have : p ∈ sUnion (s.info.sets .succeeded) (s.info.sets .failed) := by
      rw [mem_sUnion]
      rcases hk with rfl | rfl
      · exact Or.inl ((hsets _ p).2 hp)
      · exact Or.inr ((hsets _ p).2 hp)
    rw [b3] at this; cases this
  refine ⟨by omega, hend _ (Or.inl rfl), hend _ (Or.inr rfl), fun hlt => ?_⟩
  have hl : (pySlice (order (s.info.sets .pending)) (s.info.delta s.shown)).length = 0 := by rw [b2]; rfl
  unfold pySlice at hl
  rw [if_neg (by omega), List.length_take, (ho _).length_eq, hlen] at hl
  omega

/-! ### Examples -/

private def w (n : Nat) : Str := [Char.ofNat (97 + n)]

/-- Two workers are asked for; one request fails at first; one worker ends and is replaced. -/
private def busyOps : List CrewOp :=
  [.ask 2, .show, .begin 0, .nextBatch, .createFailed, .nextBatch, .nextBatch, .finish, .fire, .begin 1, .nextBatch,
    .created (w 0), .nextBatch, .created (w 1), .nextBatch, .finish, .turn (w 0) .pending, .showPod (w 0) 2,
    .turn (w 1) .running, .showPod (w 1) 3, .begin 3, .turn (w 0) .running, .showPod (w 0) 4, .begin 4,
    .turn (w 1) .failed, .showPod (w 1) 5, .begin 5, .nextBatch, .created (w 2), .nextBatch, .deleted (w 1), .finish,
    .turn (w 2) .running, .showPod (w 1) 6, .showPod (w 2) 6, .begin 6]

private def demo (ops : List CrewOp) : Crew := ops.foldl (Crew.step id) (.init 0)

private theorem reach_demo {P : Crew → CrewOp → Prop} {s : Crew} (ops : List CrewOp) (h : CrewReach id P s)
    (hp : ∀ op ∈ ops, ∀ s, P s op) : CrewReach id P (ops.foldl (Crew.step id) s) := by
  induction ops generalizing s with
  | nil => exact h
  | cons op ops ih =>
    exact ih (.step h (hp op (List.mem_cons_self ..) s)) (fun o ho => hp o (List.mem_cons_of_mem _ ho))

/-- No pod is deleted by others. -/
private def noLoss : CrewOp → Bool
  | .lost _ => false
  | _ => true

private theorem acquainted_of {op : CrewOp} (h : noLoss op = true) (s : Crew) : Acquainted s op := by
  cases op <;> first | exact trivial | cases h

private theorem reach_busy : CrewReach id Acquainted (demo busyOps) :=
  reach_demo busyOps .init (fun op ho s => acquainted_of (List.all_eq_true.1 (by decide : busyOps.all noLoss = true) op ho) s)

set_option maxRecDepth 8000 in
/-- The theorem applies: two workers run in the end. -/
example : (demo busyOps).Quiet ∧ (∀ p ∈ (demo busyOps).pods, (demo busyOps).state p ≠ none) ∧
    (demo busyOps).replicas = 2 ∧ (demo busyOps).workers .running = [w 0, w 2] :=
  ⟨⟨by decide +kernel, by decide +kernel, by decide +kernel, by decide +kernel, by decide +kernel⟩,
    by decide +kernel, by decide +kernel, by decide +kernel⟩

/-- A worker is made that finds no node; then two more are asked for. -/
private def stuckOps : List CrewOp :=
  [.ask 1, .show, .begin 0, .nextBatch, .created (w 0), .nextBatch, .finish, .showPod (w 0) 1, .ask 3, .show, .begin 2]

/-- A worker is deleted before the controller has seen it. -/
private def unseenOps : List CrewOp :=
  [.ask 1, .show, .begin 0, .nextBatch, .created (w 0), .nextBatch, .finish, .lost (w 0), .showPod (w 0) 1, .poke,
    .begin 2]

/-- **C132 (violated).** As long as the container of one worker has no status, as when no node has room for it, the
controller ignores further requests: three workers are asked for, and one pod is all there is, with nothing left to
do. -/
theorem C132_stuck_violated :
    ∃ s, CrewReach id Acquainted s ∧ s.Quiet ∧ s.replicas = 3 ∧ s.pods.length = 1 :=
  ⟨demo stuckOps,
    reach_demo stuckOps .init (fun op ho s => acquainted_of (List.all_eq_true.1 (by decide : stuckOps.all noLoss = true) op ho) s),
    ⟨by decide +kernel, by decide +kernel, by decide +kernel, by decide +kernel, by decide +kernel⟩,
    by decide +kernel, by decide +kernel⟩

/-- **C132 (violated).** A worker's pod that others delete before the controller has seen it is not replaced: the
controller goes on waiting for it. -/
theorem C132_unseen_violated :
    ∃ s, CrewReach id (fun _ _ => True) s ∧ s.Quiet ∧ s.replicas = 1 ∧ s.pods = [] :=
  ⟨demo unseenOps, reach_demo unseenOps .init (fun _ _ _ => trivial),
    ⟨by decide +kernel, by decide +kernel, by decide +kernel, by decide +kernel, by decide +kernel⟩,
    by decide +kernel, by decide +kernel⟩

/-- A user who asks for one worker less than there are pending ones loses all of them but one, and the controller
makes new ones only when it has seen the deletions. -/
private def lessOps : List CrewOp :=
  [.ask 3, .show, .begin 0, .nextBatch, .created (w 0), .nextBatch, .created (w 1), .created (w 2), .nextBatch, .finish,
    .turn (w 0) .pending, .turn (w 1) .pending, .turn (w 2) .pending, .showPod (w 0) 1, .showPod (w 1) 1,
    .showPod (w 2) 1, .ask 2, .show, .begin 2, .nextBatch, .deleted (w 0), .deleted (w 1), .finish, .showPod (w 0) 3,
    .showPod (w 1) 3]

example : (demo lessOps).pods = [w 2] ∧ (demo lessOps).queued = true := by decide +kernel

end Verif.KubeLoop
