import Verif.Kube.Pods
/-! Properties C50 and C51: pod bookkeeping and scaling decisions. -/
set_option linter.unusedSimpArgs false
namespace Verif.Kube

/-! ### C50 -/

/-- Something the informer reports about a pod. -/
inductive PodEvent where
  | update (p : Pod)
  | delete (p : Pod)

/-- The pod a report is about. -/
def PodEvent.pod : PodEvent → Pod
  | .update p => p
  | .delete p => p

/-- A report with the time and the clusters known to be stopped then, and what the reconcilers then
expect of the clusters: creations, deletions and when that was set. -/
structure Report where
  counts : Str → Int × Int × Rat
  stopped : Str → Bool
  now : Rat
  event : PodEvent

/-- What reconcilers do between reports: they may set any expectations (controller.py:89-95, 767, 791,
818) and touch nothing else. -/
def Pods.between (s : Pods) (counts : Str → Int × Int × Rat) : Pods :=
  { s with infos := fun k =>
      { s.infos k with creates := (counts k).1, deletes := (counts k).2.1, stamp := (counts k).2.2 } }

/-- The controller's state after some reports. -/
def watchPods (reports : List Report) : Pods :=
  reports.foldl (fun s r => match r.event with
    | .update p => (s.between r.counts).onUpdate r.stopped r.now p
    | .delete p => (s.between r.counts).onDelete r.stopped r.now p) { infos := fun _ => .init 0, queued := [] }

/-- Specification: what a report shows of a worker pod, if it shows anything. -/
def shown (p : Pod) : Option Kind :=
  match p.phase, p.container workerName with
  | .pending, some _ => some .pending
  | .succeeded, some _ => some .succeeded
  | .failed, some _ => some .failed
  | .running, some .running => some .running
  | .running, some (.terminated 0) => some .succeeded
  | _, _ => none

/-- Specification: a report about a worker of that name in that cluster. -/
def About (key name : Str) (p : Pod) : Prop :=
  p.clusterKey = some key ∧ p.component = some workerName ∧ p.name = name

instance (key name : Str) (p : Pod) : Decidable (About key name p) := by
  unfold About; exact inferInstance

/-- Specification: what was last shown of a worker of a cluster since its last deletion. -/
def lastShown (reports : List Report) (key name : Str) : Option Kind :=
  reports.foldl (fun k r => match r.event with
    | .update p => if About key name p then (shown p).or k else k
    | .delete p => if About key name p then none else k) none

/-- Specification: the pod that exists under a namespace and name according to the reports. -/
def live (reports : List Report) (ns name : Str) : Option Pod :=
  reports.foldl (fun l r => match r.event with
    | .update p => if p.ns = ns ∧ p.name = name then some p else l
    | .delete p => if p.ns = ns ∧ p.name = name then none else l) none

/-- The labels of a pod never change. -/
def LabelsFixed (reports : List Report) : Prop :=
  ∀ r ∈ reports, ∀ r' ∈ reports, r.event.pod.ns = r'.event.pod.ns →
    r.event.pod.name = r'.event.pod.name →
    r.event.pod.cluster = r'.event.pod.cluster ∧ r.event.pod.component = r'.event.pod.component

/-- An info holds exactly the pods of `f`, each in its set. -/
def Placed (i : Info) (f : Str → Option Kind) : Prop :=
  ∀ n, (n ∈ i.all ↔ (f n).isSome) ∧ ∀ k, n ∈ i.sets k ↔ f n = some k

theorem mem_sAdd {s : List Str} {x y : Str} : y ∈ sAdd s x ↔ y = x ∨ y ∈ s := by
  unfold sAdd
  split
  · rename_i h
    constructor
    · exact Or.inr
    · rintro (rfl | h') <;> assumption
  · simp only [List.mem_append, List.mem_singleton]; exact Or.comm

theorem mem_sDel {s : List Str} {x y : Str} : y ∈ sDel s x ↔ y ≠ x ∧ y ∈ s := by
  unfold sDel
  simp only [List.mem_filter, decide_eq_true_eq]; exact And.comm

theorem update_sets (i : Info) (kind : Kind) (pod : Str) (k : Kind) :
    (i.update kind pod).1.sets k = if k = kind then sAdd (i.sets k) pod else sDel (i.sets k) pod := by
  unfold Info.update
  dsimp only
  have : (if pod ∈ i.all then i else { i with creates := i.creates - 1, all := sAdd i.all pod }).sets k =
      i.sets k := by split <;> rfl
  rw [this]

theorem mem_update_all (i : Info) (kind : Kind) (pod n : Str) :
    n ∈ (i.update kind pod).1.all ↔ n = pod ∨ n ∈ i.all := by
  unfold Info.update
  dsimp only
  split
  · rename_i h
    constructor
    · exact Or.inr
    · rintro (rfl | h') <;> assumption
  · simp only [mem_sAdd]

theorem placed_update {i : Info} {f : Str → Option Kind} (h : Placed i f) (kind : Kind) (pod : Str) :
    Placed (i.update kind pod).1 (fun n => if n = pod then some kind else f n) := by
  intro n
  constructor
  · rw [mem_update_all, (h n).1]
    by_cases e : n = pod <;> simp [e]
  · intro k
    rw [update_sets]
    by_cases e : n = pod
    · subst e
      simp only [if_true, Option.some.injEq]
      split
      · rename_i hk
        simp [mem_sAdd, hk]
      · rename_i hk
        simp [mem_sDel, Ne.symm hk]
    · simp only [e, if_false]
      rw [← (h n).2 k]
      split <;> simp [mem_sAdd, mem_sDel, e]

theorem placed_deleted {i : Info} {f : Str → Option Kind} (h : Placed i f) (pod : Str) :
    Placed (i.deleted pod) (fun n => if n = pod then none else f n) := by
  unfold Info.deleted
  split
  · intro n
    dsimp only
    by_cases e : n = pod
    · subst e; simp [mem_sDel]
    · simp only [mem_sDel, ne_eq, e, not_false_eq_true, true_and, if_false]
      exact h n
  · rename_i hn
    have hf : f pod = none := by
      rw [(h pod).1] at hn
      simpa using hn
    have : (fun n => if n = pod then none else f n) = f := by
      funext n
      by_cases e : n = pod
      · subst e; simp [hf]
      · simp [e]
    rw [this]; exact h

private theorem putIf_infos (s : Pods) (c : Bool) (key : Str) : (s.putIf c key).infos = s.infos := by
  unfold Pods.putIf; split <;> rfl

private theorem shown_eq (p : Pod) : shown p =
    if p.phase = .unknown then none else (p.container workerName).bind (classify p.phase) := by
  unfold shown
  cases p.phase <;> cases hc : p.container workerName <;> simp [classify]
  rename_i cs
  cases cs with
  | terminated c =>
    by_cases h : c = 0
    · subst h; rfl
    · simp only [h, if_false]
      split <;> simp_all
  | _ => rfl

private theorem workerUpdate_infos (s : Pods) (stopping : Bool) (now : Rat) (key k : Str) (p : Pod) :
    (s.workerUpdate stopping now key p).infos k =
      match shown p with
      | some kind => if k = key then ((s.infos key).update kind p.name).1 else s.infos k
      | none => s.infos k := by
  rw [shown_eq]
  unfold Pods.workerUpdate
  by_cases h : p.phase = .unknown
  · simp [h]
  · simp only [h, if_false]
    cases hc : p.container workerName with
    | none => rfl
    | some cs =>
      simp only [Option.bind_some]
      cases hcl : classify p.phase cs with
      | some kind => simp only [putIf_infos, Pods.setInfo]
      | none =>
        dsimp only
        split
        · rfl
        · rw [putIf_infos]

private theorem names_ne : workerName ≠ schedulerName := by decide

private theorem onUpdate_infos (s : Pods) (stopped : Str → Bool) (now : Rat) (p : Pod) (k : Str) :
    (s.onUpdate stopped now p).infos k =
      if p.clusterKey = some k ∧ p.component = some workerName then
        match shown p with
        | some kind => ((s.infos k).update kind p.name).1
        | none => s.infos k
      else s.infos k := by
  unfold Pods.onUpdate
  cases hk : p.clusterKey with
  | none => simp
  | some key =>
    dsimp only
    by_cases hs : p.component = some schedulerName
    · have : p.component ≠ some workerName := by
        rw [hs]; intro h; exact names_ne (Option.some.inj h).symm
      rw [if_pos hs, putIf_infos]
      simp [this]
    · rw [if_neg hs]
      by_cases hw : p.component = some workerName
      · rw [if_pos hw, workerUpdate_infos]
        by_cases e : k = key
        · subst e; simp [hw]
        · have : ¬ (some key = some k) := by simp [Ne.symm e]
          simp only [this, false_and, if_false, e]
          split <;> rfl
      · simp [hw]

private theorem onDelete_infos (s : Pods) (stopped : Str → Bool) (now : Rat) (p : Pod) (k : Str) :
    (s.onDelete stopped now p).infos k =
      if p.clusterKey = some k ∧ p.component = some workerName then (s.infos k).deleted p.name
      else s.infos k := by
  unfold Pods.onDelete
  cases hk : p.clusterKey with
  | none => simp
  | some key =>
    dsimp only
    by_cases hs : p.component = some schedulerName
    · have : p.component ≠ some workerName := by
        rw [hs]; intro h; exact names_ne (Option.some.inj h).symm
      simp only [this, and_false, if_false]
      split
      · rw [putIf_infos]
      · rfl
    · rw [if_neg (fun h => hs h.1)]
      by_cases hw : p.component = some workerName
      · rw [if_pos hw, putIf_infos]
        simp only [Pods.setInfo]
        by_cases e : k = key
        · subst e; simp [hw]
        · have : ¬ (some key = some k) := by simp [Ne.symm e]
          simp [e, this]
      · simp [hw]

private theorem watchPods_snoc (l : List Report) (r : Report) :
    watchPods (l ++ [r]) = match r.event with
      | .update p => ((watchPods l).between r.counts).onUpdate r.stopped r.now p
      | .delete p => ((watchPods l).between r.counts).onDelete r.stopped r.now p := by
  unfold watchPods; rw [List.foldl_append]; rfl

private theorem lastShown_snoc (l : List Report) (r : Report) (key name : Str) :
    lastShown (l ++ [r]) key name = match r.event with
      | .update p => if About key name p then (shown p).or (lastShown l key name) else lastShown l key name
      | .delete p => if About key name p then none else lastShown l key name := by
  unfold lastShown; rw [List.foldl_append]; rfl

private theorem live_snoc (l : List Report) (r : Report) (ns name : Str) :
    live (l ++ [r]) ns name = match r.event with
      | .update p => if p.ns = ns ∧ p.name = name then some p else live l ns name
      | .delete p => if p.ns = ns ∧ p.name = name then none else live l ns name := by
  unfold live; rw [List.foldl_append]; rfl

private theorem snoc_ind {α : Type} {P : List α → Prop} (h0 : P []) (hs : ∀ l a, P l → P (l ++ [a]))
    (l : List α) : P l := by
  rw [← List.reverse_reverse l]
  induction l.reverse with
  | nil => exact h0
  | cons a r ih => rw [List.reverse_cons]; exact hs _ _ ih

private theorem placed_congr {i : Info} {f g : Str → Option Kind} (h : Placed i f)
    (e : ∀ n, f n = g n) : Placed i g := by
  have : f = g := funext e
  rw [← this]; exact h

private theorem placed_watch (reports : List Report) (key : Str) :
    Placed ((watchPods reports).infos key) (lastShown reports key) := by
  induction reports using snoc_ind with
  | h0 => intro n; simp [watchPods, Info.init, lastShown]
  | hs l r ih =>
    have ih : Placed (((watchPods l).between r.counts).infos key) (lastShown l key) := ih
    rw [watchPods_snoc]
    cases hr : r.event with
    | update p =>
      dsimp only
      rw [onUpdate_infos]
      by_cases hk : p.clusterKey = some key ∧ p.component = some workerName
      · rw [if_pos hk]
        cases hsh : shown p with
        | some kind =>
          refine placed_congr (placed_update ih kind p.name) (fun n => ?_)
          rw [lastShown_snoc, hr]
          dsimp only
          by_cases e : n = p.name
          · rw [if_pos e, if_pos ⟨hk.1, hk.2, e.symm⟩, hsh]; rfl
          · rw [if_neg e, if_neg (fun h => e h.2.2.symm)]
        | none =>
          refine placed_congr ih (fun n => ?_)
          rw [lastShown_snoc, hr]
          dsimp only
          rw [hsh]
          simp
      · rw [if_neg hk]
        refine placed_congr ih (fun n => ?_)
        rw [lastShown_snoc, hr]
        dsimp only
        rw [if_neg (fun h => hk ⟨h.1, h.2.1⟩)]
    | delete p =>
      dsimp only
      rw [onDelete_infos]
      by_cases hk : p.clusterKey = some key ∧ p.component = some workerName
      · rw [if_pos hk]
        refine placed_congr (placed_deleted ih p.name) (fun n => ?_)
        rw [lastShown_snoc, hr]
        dsimp only
        by_cases e : n = p.name
        · rw [if_pos e, if_pos ⟨hk.1, hk.2, e.symm⟩]
        · rw [if_neg e, if_neg (fun h => e h.2.2.symm)]
      · rw [if_neg hk]
        refine placed_congr ih (fun n => ?_)
        rw [lastShown_snoc, hr]
        dsimp only
        rw [if_neg (fun h => hk ⟨h.1, h.2.1⟩)]

/-- C50: a pod is in a set exactly if that is what was last shown of it since its last deletion; so it
is in at most one. -/
theorem C50_sets (reports : List Report) (key name : Str) (k : Kind) :
    name ∈ ((watchPods reports).infos key).sets k ↔ lastShown reports key name = some k :=
  (placed_watch reports key name).2 k

/-- C50: the pods counted at all are those in one of the sets, each in exactly one. -/
theorem C50_partition (reports : List Report) (key name : Str) :
    name ∈ ((watchPods reports).infos key).all ↔
      ∃ k, name ∈ ((watchPods reports).infos key).sets k ∧
        ∀ k', name ∈ ((watchPods reports).infos key).sets k' → k' = k := by
  rw [(placed_watch reports key name).1, Option.isSome_iff_exists]
  simp only [C50_sets]
  constructor
  · rintro ⟨k, hk⟩
    exact ⟨k, hk, fun k' h => Option.some.inj (h.symm.trans hk)⟩
  · rintro ⟨k, hk, _⟩
    exact ⟨k, hk⟩

private theorem live_labels {reports : List Report} {ns name : Str} {p : Pod}
    (h : live reports ns name = some p) : p.ns = ns ∧ p.name = name ∧ ∃ r ∈ reports, r.event = .update p := by
  induction reports using snoc_ind with
  | h0 => cases h
  | hs l r ih =>
    rw [live_snoc] at h
    have up : (p.ns = ns ∧ p.name = name ∧ ∃ r ∈ l, r.event = .update p) →
        p.ns = ns ∧ p.name = name ∧ ∃ r' ∈ l ++ [r], r'.event = .update p := by
      rintro ⟨h1, h2, r', h3, h4⟩
      exact ⟨h1, h2, r', List.mem_append.2 (Or.inl h3), h4⟩
    cases hr : r.event with
    | update q =>
      rw [hr] at h; dsimp only at h
      split at h
      · rename_i hq
        cases h
        exact ⟨hq.1, hq.2, r, by simp, hr⟩
      · exact up (ih h)
    | delete q =>
      rw [hr] at h; dsimp only at h
      split at h
      · cases h
      · exact up (ih h)

private theorem fixed_prefix {l : List Report} {r : Report} (h : LabelsFixed (l ++ [r])) :
    LabelsFixed l := fun a ha b hb =>
  h a (List.mem_append.2 (Or.inl ha)) b (List.mem_append.2 (Or.inl hb))

/-- C50: no other pod is counted: a pod in a set of a cluster exists and is a worker of it. -/
theorem C50_only_live (reports : List Report) (hf : LabelsFixed reports) (key name : Str) (k : Kind)
    (h : name ∈ ((watchPods reports).infos key).sets k) :
    ∃ p, live reports p.ns name = some p ∧ p.clusterKey = some key ∧ p.component = some workerName := by
  rw [C50_sets] at h
  induction reports using snoc_ind generalizing k with
  | h0 => cases h
  | hs l r ih =>
    rw [lastShown_snoc] at h
    have keep : lastShown l key name = some k → (∀ p, r.event = .delete p → ¬ About key name p) →
        ∃ p, live (l ++ [r]) p.ns name = some p ∧ p.clusterKey = some key ∧
          p.component = some workerName := by
      intro hl hnd
      obtain ⟨p, hp, hk, hc⟩ := ih (fixed_prefix hf) k hl
      obtain ⟨_, hpn, r', hr', he'⟩ := live_labels hp
      have hfix := hf r (by simp) r' (List.mem_append.2 (Or.inl hr'))
      rw [he'] at hfix
      cases hr : r.event with
      | update q =>
        by_cases e : q.ns = p.ns ∧ q.name = name
        · rw [hr] at hfix
          obtain ⟨f1, f2⟩ := hfix e.1 (e.2.trans hpn.symm)
          refine ⟨q, ?_, ?_, f2.trans hc⟩
          · rw [live_snoc, hr]
            dsimp only
            rw [if_pos ⟨rfl, e.2⟩]
          · unfold Pod.clusterKey at hk ⊢
            simp only [PodEvent.pod] at f1
            rw [e.1, f1]; exact hk
        · refine ⟨p, ?_, hk, hc⟩
          rw [live_snoc, hr]
          dsimp only
          rw [if_neg e]; exact hp
      | delete q =>
        refine ⟨p, ?_, hk, hc⟩
        rw [live_snoc, hr]
        dsimp only
        rw [if_neg ?_]
        · exact hp
        · intro e
          rw [hr] at hfix
          obtain ⟨f1, f2⟩ := hfix e.1 (e.2.trans hpn.symm)
          refine hnd q hr ⟨?_, f2.trans hc, e.2⟩
          unfold Pod.clusterKey at hk ⊢
          simp only [PodEvent.pod] at f1
          rw [e.1, f1]; exact hk
    cases hr : r.event with
    | update q =>
      rw [hr] at h; dsimp only at h
      split at h
      · rename_i ha
        refine ⟨q, ?_, ha.1, ha.2.1⟩
        rw [live_snoc, hr]
        dsimp only
        rw [if_pos ⟨rfl, ha.2.2⟩]
      · exact keep h (fun p hp => by rw [hr] at hp; cases hp)
    | delete q =>
      rw [hr] at h; dsimp only at h
      split at h
      · cases h
      · rename_i hna
        exact keep h (fun p hp => by rw [hr] at hp; cases hp; exact hna)

/-- Specification: the namespaces contain no dots, as Kubernetes requires. -/
def PlainNamespaces (reports : List Report) : Prop := ∀ r ∈ reports, '.' ∉ r.event.pod.ns

theorem split_key {a a' b b' : Str} (h : '.' ∉ a) (h' : '.' ∉ a')
    (e : a ++ '.' :: b = a' ++ '.' :: b') : a = a' ∧ b = b' := by
  induction a generalizing a' with
  | nil =>
    cases a' with
    | nil => simpa using e
    | cons c l =>
      simp only [List.nil_append, List.cons_append, List.cons.injEq] at e
      exact absurd (by rw [← e.1]; simp) h'
  | cons c a ih =>
    cases a' with
    | nil =>
      simp only [List.nil_append, List.cons_append, List.cons.injEq] at e
      exact absurd (by rw [e.1]; simp) h
    | cons d l =>
      simp only [List.cons_append, List.cons.injEq] at e
      simp only [List.mem_cons, not_or] at h h'
      obtain ⟨h1, h2⟩ := ih h.2 h'.2 e.2
      exact ⟨by rw [e.1, h1], h2⟩

/-- C50, in part: a worker that exists and whose latest report shows something is in the set shown and
in no other. Missing: reports that show nothing, see `C50_violated`. -/
theorem C50_live_partial (reports : List Report) (hn : PlainNamespaces reports) (ns key name : Str)
    (p : Pod) (hl : live reports ns name = some p) (hk : p.clusterKey = some key)
    (hc : p.component = some workerName) (k : Kind) (hs : shown p = some k) (k' : Kind) :
    name ∈ ((watchPods reports).infos key).sets k' ↔ k' = k := by
  rw [C50_sets]
  have : lastShown reports key name = some k := by
    induction reports using snoc_ind with
    | h0 => cases hl
    | hs l r ih =>
      have hn' : PlainNamespaces l := fun x hx => hn x (List.mem_append.2 (Or.inl hx))
      have key_of : ∀ q : Pod, '.' ∉ q.ns → '.' ∉ p.ns → About key name q → q.ns = p.ns := by
        intro q h1 h2 ha
        have e := ha.1.trans hk.symm
        unfold Pod.clusterKey at e
        cases hq : q.cluster with
        | none =>
          have := ha.1
          unfold Pod.clusterKey at this
          rw [hq] at this; cases this
        | some c =>
          cases hp : p.cluster with
          | none =>
            have := hk
            unfold Pod.clusterKey at this
            rw [hp] at this; cases this
          | some d =>
            rw [hq, hp] at e
            exact (split_key h1 h2 (Option.some.inj e)).1
      obtain ⟨e1, e2, r0, hr0, he0⟩ := live_labels hl
      have hdot : '.' ∉ p.ns := by
        have := hn r0 hr0
        rw [he0] at this; exact this
      have hdot' : '.' ∉ r.event.pod.ns := hn r (by simp)
      rw [live_snoc] at hl
      rw [lastShown_snoc]
      cases hr : r.event with
      | update q =>
        rw [hr] at hl hdot'; dsimp only at hl ⊢
        split at hl
        · cases hl
          rw [if_pos ⟨hk, hc, e2⟩, hs]; rfl
        · rename_i hne
          rw [if_neg]
          · exact ih hn' hl
          · intro ha
            exact hne ⟨(key_of q hdot' hdot ha).trans e1, ha.2.2⟩
      | delete q =>
        rw [hr] at hl hdot'; dsimp only at hl ⊢
        split at hl
        · cases hl
        · rename_i hne
          rw [if_neg]
          · exact ih hn' hl
          · intro ha
            exact hne ⟨(key_of q hdot' hdot ha).trans e1, ha.2.2⟩
  rw [this]
  constructor
  · intro h; exact (Option.some.inj h).symm
  · rintro rfl; rfl

/-- A worker pod whose container waits to be restarted. -/
private def waitingPod : Pod :=
  { ns := ['n'], name := ['p'], cluster := some ['c'], component := some workerName, phase := .running
    containers := [(workerName, .waiting)] }

/-- C50 does not hold in full: a running pod whose container is waiting (say, to be restarted) is in no
set if it has not been seen before. -/
theorem C50_violated : ¬ ∀ (reports : List Report), LabelsFixed reports → PlainNamespaces reports →
    ∀ ns key name p, live reports ns name = some p → p.clusterKey = some key →
      p.component = some workerName → ∃ k, name ∈ ((watchPods reports).infos key).sets k := by
  intro h
  obtain ⟨k, hk⟩ := h [⟨fun _ => (0, 0, 0), fun _ => false, 0, .update waitingPod⟩]
    (by
      intro r hr r' hr' _ _
      rw [List.mem_singleton.1 hr, List.mem_singleton.1 hr']
      exact ⟨rfl, rfl⟩)
    (by
      intro r hr
      rw [List.mem_singleton.1 hr]
      decide)
    ['n'] ['n', '.', 'c'] ['p'] waitingPod (by decide) (by decide) (by decide)
  rw [C50_sets] at hk
  have : lastShown [⟨fun _ => (0, 0, 0), fun _ => false, 0, .update waitingPod⟩] ['n', '.', 'c'] ['p'] = none := by decide
  rw [this] at hk
  cases hk

/-- A pod becomes pending, then running; another is deleted. -/
example :
    let pod (name : Str) (phase : PodPhase) (cs : CState) : Pod :=
      { ns := ['n'], name, cluster := some ['c'], component := some workerName, phase
        containers := [(workerName, cs)] }
    let s := watchPods
      [⟨fun _ => (0, 0, 0), fun _ => false, 0, .update (pod ['p'] .pending .waiting)⟩,
       ⟨fun _ => (0, 0, 0), fun _ => false, 0, .update (pod ['q'] .pending .waiting)⟩,
       ⟨fun _ => (0, 0, 0), fun _ => false, 0, .update (pod ['p'] .running .running)⟩,
       ⟨fun _ => (0, 0, 0), fun _ => false, 0, .delete (pod ['q'] .failed (.terminated 1))⟩]
    let i := s.infos ['n', '.', 'c']
    i.all = [['p']] ∧ i.sets .running = [['p']] ∧ i.sets .pending = [] := by decide +kernel

/-! ### C51 -/

/-- The pods of an info are kept without repetition and its sets are disjoint, as `C50_partition` and
the definition of sets give. -/
structure Info.Tidy (i : Info) : Prop where
  nodup : ∀ k, (i.sets k).Nodup
  disjoint : ∀ k k' n, n ∈ i.sets k → n ∈ i.sets k' → k = k'

theorem nodup_sAdd {s : List Str} {x : Str} (h : s.Nodup) : (sAdd s x).Nodup := by
  unfold sAdd
  split
  · exact h
  · rename_i hx
    refine List.nodup_append.2 ⟨h, by simp, ?_⟩
    intro a ha b hb e
    rw [List.mem_singleton.1 hb] at e
    exact hx (e ▸ ha)

theorem nodup_sDel {s : List Str} {x : Str} (h : s.Nodup) : (sDel s x).Nodup := h.filter _

theorem tidy_update {i : Info} (h : i.Tidy) (kind : Kind) (pod : Str) : (i.update kind pod).1.Tidy := by
  refine ⟨fun k => ?_, fun k k' n hk hk' => ?_⟩
  · rw [update_sets]
    split
    · exact nodup_sAdd (h.nodup k)
    · exact nodup_sDel (h.nodup k)
  · rw [update_sets] at hk hk'
    by_cases e : n = pod
    · subst e
      have : ∀ j, n ∈ (if j = kind then sAdd (i.sets j) n else sDel (i.sets j) n) → j = kind := by
        intro j hj
        split at hj
        · assumption
        · simp [mem_sDel] at hj
      rw [this k hk, this k' hk']
    · have : ∀ j, n ∈ (if j = kind then sAdd (i.sets j) pod else sDel (i.sets j) pod) → n ∈ i.sets j := by
        intro j hj
        split at hj
        · rw [mem_sAdd] at hj
          exact hj.resolve_left e
        · rw [mem_sDel] at hj
          exact hj.2
      exact h.disjoint k k' n (this k hk) (this k' hk')

theorem tidy_deleted {i : Info} (h : i.Tidy) (pod : Str) : (i.deleted pod).Tidy := by
  unfold Info.deleted
  split
  · refine ⟨fun k => nodup_sDel (h.nodup k), fun k k' n hk hk' => ?_⟩
    dsimp only at hk hk'
    rw [mem_sDel] at hk hk'
    exact h.disjoint k k' n hk.2 hk'.2
  · exact h

/-- The infos of the controller are tidy. -/
theorem watchPods_tidy (reports : List Report) (key : Str) : ((watchPods reports).infos key).Tidy := by
  induction reports using snoc_ind with
  | h0 => exact ⟨fun _ => List.nodup_nil, fun _ _ _ h => (by cases h)⟩
  | hs l r ih =>
    have ih : (((watchPods l).between r.counts).infos key).Tidy := ⟨ih.nodup, ih.disjoint⟩
    rw [watchPods_snoc]
    cases r.event with
    | update p =>
      dsimp only
      rw [onUpdate_infos]
      split
      · split
        · exact tidy_update ih _ _
        · exact ih
      · exact ih
    | delete p =>
      dsimp only
      rw [onDelete_infos]
      split
      · exact tidy_deleted ih _
      · exact ih

/-- Specification: the number of workers of a cluster, pending or running. -/
def Info.workers (i : Info) : Int := (i.sets .pending).length + (i.sets .running).length

theorem length_sUnion {s t : List Str} (h : ∀ x, x ∈ s → x ∉ t) :
    (sUnion s t).length = s.length + t.length := by
  unfold sUnion
  have : t.filter (fun y => decide (y ∉ s)) = t := by
    rw [List.filter_eq_self]
    intro a ha
    simp only [decide_eq_true_eq]
    exact fun hs => h a hs ha
  rw [List.length_append, this]

theorem delta_eq {i : Info} (h : i.Tidy) (replicas : Int) : i.delta replicas = replicas - i.workers := by
  unfold Info.delta Info.workers
  rw [length_sUnion (fun x hx hp => by
    have := h.disjoint _ _ x hx hp
    cases this)]
  omega

theorem mem_sUnion {s t : List Str} {x : Str} : x ∈ sUnion s t ↔ x ∈ s ∨ x ∈ t := by
  unfold sUnion
  simp only [List.mem_append, List.mem_filter, decide_eq_true_eq]
  constructor
  · rintro (h | h)
    · exact Or.inl h
    · exact Or.inr h.1
  · rintro (h | h)
    · exact Or.inl h
    · by_cases hs : x ∈ s
      · exact Or.inl hs
      · exact Or.inr ⟨h, hs⟩

/-- C51: if workers are missing, exactly the missing ones are to be created, and only stopped pods are
deleted. -/
theorem C51_up (i : Info) (h : i.Tidy) (order : List Str → List Str) (now : Rat) (replicas : Int)
    (ht : i.shouldTrigger now = true) (hm : i.workers < replicas) :
    ∃ del, i.plan order now replicas = .up (replicas - i.workers).toNat del ∧
      ∀ x, x ∈ del ↔ x ∈ i.sets .succeeded ∨ x ∈ i.sets .failed := by
  refine ⟨_, ?_, fun x => mem_sUnion⟩
  unfold Info.plan
  rw [delta_eq h, if_pos ht, if_pos (by omega)]

/-- C51: workers are created only if some are missing. -/
theorem C51_up_only (i : Info) (h : i.Tidy) (order : List Str → List Str) (now : Rat) (replicas : Int)
    (count : Nat) (del : List Str) (hp : i.plan order now replicas = .up count del) :
    i.workers + count = replicas ∧ 0 < count := by
  unfold Info.plan at hp
  rw [delta_eq h] at hp
  split at hp
  · split at hp
    · cases hp; omega
    · cases hp
  · cases hp

private theorem batchLoop_spec (ok : Nat → Bool) (remaining : Nat) : ∀ (sent bad size : Nat),
    let b := batchLoop ok sent bad remaining size
    b.sent + b.unsent = sent + remaining ∧ sent ≤ b.sent ∧
    b.bad = bad + countBad ok sent (b.sent - sent) ∧
    b.failed = decide (0 < countBad ok sent (b.sent - sent)) ∧
    (b.unsent ≠ 0 → b.failed = true) := by
  induction remaining using Nat.strongRecOn with
  | ind remaining ih =>
    intro sent bad size
    unfold batchLoop
    split
    · rename_i hpos
      dsimp only
      have hadd : ∀ a b, countBad ok sent (a + b) = countBad ok sent a + countBad ok (sent + a) b := by
        intro a b
        induction b with
        | zero => rfl
        | succ b ihb =>
          rw [← Nat.add_assoc]
          have cs : ∀ m n, countBad ok m (n + 1) = countBad ok m n + (if ok (m + n) then 0 else 1) :=
            fun _ _ => rfl
          rw [cs, cs, ihb, Nat.add_assoc sent a b]
          omega
      generalize hn : min (max 1 size) remaining = n
      have hn1 : 1 ≤ n ∧ n ≤ remaining := by omega
      split
      · rename_i hbad
        refine ⟨by dsimp only; omega, by dsimp only; omega, ?_, ?_, fun _ => rfl⟩
        · dsimp only; rw [Nat.add_sub_cancel_left]
        · dsimp only; rw [Nat.add_sub_cancel_left]; exact (decide_eq_true hbad).symm
      · rename_i hbad
        have hz : countBad ok sent n = 0 := by omega
        obtain ⟨h1, h2, h3, h4, h5⟩ := ih (remaining - n) (by omega) (sent + n) bad (size * 2)
        generalize batchLoop ok (sent + n) bad (remaining - n) (size * 2) = b at h1 h2 h3 h4 h5
        have e : b.sent - sent = n + (b.sent - (sent + n)) := by omega
        have e2 : countBad ok sent (b.sent - sent) = countBad ok (sent + n) (b.sent - (sent + n)) := by
          rw [e, hadd, hz, Nat.zero_add]
        refine ⟨by omega, by omega, ?_, ?_, h5⟩
        · rw [e2]; exact h3
        · rw [e2]; exact h4
    · rename_i hz
      have : remaining = 0 := by omega
      subst this
      simp [countBad]

/-- C51: creating workers in batches sends at most the requests asked for, and all of them unless one
fails. -/
theorem C51_batches (ok : Nat → Bool) (count : Nat) :
    let b := batchCreate ok count
    b.sent ≤ count ∧ (b.failed = false → b.sent = count) ∧
    (b.failed = true ↔ ∃ n < b.sent, ok n = false) ∧ ((∀ n < count, ok n = true) → b.sent = count) := by
  have h := batchLoop_spec ok count 0 0 1
  dsimp only at h ⊢
  change _ ∧ _ ∧ _ ∧ _ ∧ _ at h
  unfold batchCreate
  generalize batchLoop ok 0 0 count 1 = b at h
  obtain ⟨h1, h2, h3, h4, h5⟩ := h
  have hcb : ∀ m, 0 < countBad ok 0 m ↔ ∃ n < m, ok n = false := by
    intro m
    induction m with
    | zero => simp [countBad]
    | succ m ih =>
      unfold countBad
      rw [Nat.zero_add]
      cases ho : ok m with
      | true =>
        simp only [if_true, Nat.add_zero]
        rw [ih]
        constructor
        · rintro ⟨n, hn, h⟩; exact ⟨n, by omega, h⟩
        · rintro ⟨n, hn, h⟩
          refine ⟨n, ?_, h⟩
          have : n ≠ m := fun e => by rw [e, ho] at h; cases h
          omega
      | false =>
        simp only [Bool.false_eq_true, if_false]
        exact ⟨fun _ => ⟨m, by omega, ho⟩, fun _ => by omega⟩
  have hiff : b.failed = true ↔ ∃ n < b.sent, ok n = false := by
    rw [h4, decide_eq_true_eq, Nat.sub_zero, hcb]
  have hall : b.failed = false → b.sent = count := by
    intro hf
    have : b.unsent = 0 := Classical.byContradiction (fun hu => by rw [h5 hu] at hf; cases hf)
    omega
  refine ⟨by omega, hall, hiff, fun ho => hall ?_⟩
  cases hf : b.failed with
  | false => rfl
  | true =>
    obtain ⟨n, hn, hb⟩ := hiff.1 hf
    rw [ho n (by omega)] at hb
    cases hb

/-- C52: after the creation requests, the expected creations are exactly the requests that
succeeded. -/
theorem C52_failed_creates (ok : Nat → Bool) (i : Info) (count : Nat) (deletes : Int) (now : Rat) :
    let b := batchCreate ok count
    ((i.expect count deletes now).afterCreates b).creates = (b.sent : Int) - b.bad := by
  have h := (batchLoop_spec ok count 0 0 1).1
  dsimp only at h ⊢
  unfold batchCreate Info.afterCreates Info.expect
  dsimp only
  omega

/-- C51: a scale-down deletes pending and stopped pods only. -/
theorem C51_down_only_pending (i : Info) (order : List Str → List Str) (ho : ∀ l, (order l).Perm l)
    (now : Rat) (replicas : Int) (del : List Str) (hp : i.plan order now replicas = .down del) (x : Str)
    (hx : x ∈ del) : x ∈ i.sets .pending ∨ x ∈ i.sets .succeeded ∨ x ∈ i.sets .failed := by
  unfold Info.plan at hp
  split at hp
  · split at hp
    · cases hp
    · cases hp
      rw [List.mem_append, mem_sUnion] at hx
      rcases hx with hx | hx
      · left
        unfold pySlice at hx
        rw [← (ho _).mem_iff]
        split at hx <;> exact List.mem_of_mem_take hx
      · exact Or.inr hx
  · cases hp

/-- C51: running workers are never deleted by scaling. -/
theorem C51_running_kept (i : Info) (h : i.Tidy) (order : List Str → List Str)
    (ho : ∀ l, (order l).Perm l) (now : Rat) (replicas : Int) (del : List Str)
    (hp : i.plan order now replicas = .down del ∨ ∃ n, i.plan order now replicas = .up n del) (x : Str)
    (hx : x ∈ i.sets .running) : x ∉ del := by
  intro hd
  have dis : ∀ k, k ≠ .running → x ∉ i.sets k := fun k hk hm => hk (h.disjoint _ _ x hm hx)
  rcases hp with hp | ⟨n, hp⟩
  · rcases C51_down_only_pending i order ho now replicas del hp x hd with h' | h' | h'
    · exact dis _ (by simp) h'
    · exact dis _ (by simp) h'
    · exact dis _ (by simp) h'
  · unfold Info.plan at hp
    split at hp
    · split at hp
      · cases hp
        rw [mem_sUnion] at hd
        rcases hd with h' | h'
        · exact dis _ (by simp) h'
        · exact dis _ (by simp) h'
      · cases hp
    · cases hp

/-- Specification: the workers that remain when some pods are deleted. -/
def Info.remaining (i : Info) (del : List Str) : Int :=
  ((i.sets .pending).filter (fun x => x ∉ del)).length +
    ((i.sets .running).filter (fun x => x ∉ del)).length

private theorem filter_take_length {l o : List Str} (hp : o.Perm l) (hn : l.Nodup) (m : Nat)
    (rest : List Str) (hr : ∀ x ∈ rest, x ∉ l) :
    (l.filter (fun x => decide (x ∉ o.take m ++ rest))).length = l.length - min m l.length := by
  have h1 : (l.filter (fun x => decide (x ∉ o.take m ++ rest))).length =
      (o.filter (fun x => decide (x ∉ o.take m ++ rest))).length := (hp.symm.filter _).length_eq
  have hno : o.Nodup := hp.nodup_iff.2 hn
  have h2 : o.filter (fun x => decide (x ∉ o.take m ++ rest)) = o.drop m := by
    conv => lhs; arg 2; rw [← List.take_append_drop m o]
    rw [List.filter_append]
    have e1 : (o.take m).filter (fun x => decide (x ∉ o.take m ++ rest)) = [] := by
      rw [List.filter_eq_nil_iff]
      intro a ha
      simp [ha]
    have e2 : (o.drop m).filter (fun x => decide (x ∉ o.take m ++ rest)) = o.drop m := by
      rw [List.filter_eq_self]
      intro a ha
      simp only [decide_eq_true_eq, List.mem_append, not_or]
      refine ⟨fun hta => ?_, fun hra => hr a hra (hp.mem_iff.1 (List.mem_of_mem_drop ha))⟩
      rw [← List.take_append_drop m o] at hno
      exact (List.nodup_append.1 hno).2.2 a hta a ha rfl
    rw [e1, e2, List.nil_append]
  rw [h1, h2, List.length_drop, hp.length_eq]
  omega

/-- C51: exactly how many workers remain after a scale-down: the running ones and as many pending ones
as there are workers too many. -/
theorem C51_down_partial (i : Info) (h : i.Tidy) (order : List Str → List Str)
    (ho : ∀ l, (order l).Perm l) (now : Rat) (replicas : Int) (del : List Str)
    (hp : i.plan order now replicas = .down del) :
    replicas ≤ i.workers ∧
    i.remaining del = if replicas = i.workers then i.workers
      else (i.sets .running).length + min ((i.sets .pending).length : Int) (i.workers - replicas) := by
  have hkeep := C51_running_kept i h order ho now replicas del (Or.inl hp)
  unfold Info.plan at hp
  rw [delta_eq h] at hp
  split at hp
  · split at hp
    · cases hp
    · rename_i hd
      refine ⟨by omega, ?_⟩
      have hrun : (i.sets .running).filter (fun x => decide (x ∉ del)) = i.sets .running := by
        rw [List.filter_eq_self]
        intro a ha
        simpa using hkeep a ha
      cases hp
      unfold Info.remaining
      rw [hrun]
      have hrest : ∀ x ∈ sUnion (i.sets .succeeded) (i.sets .failed), x ∉ i.sets .pending := by
        intro x hx hpend
        rw [mem_sUnion] at hx
        rcases hx with hx | hx
        · cases h.disjoint _ _ x hx hpend
        · cases h.disjoint _ _ x hx hpend
      have hlen := filter_take_length (ho (i.sets .pending)) (h.nodup .pending)
      unfold pySlice
      by_cases hz : replicas = i.workers
      · have e0 : (0 : Int) ≤ replicas - i.workers := by omega
        have e1 : (replicas - i.workers).toNat = 0 := by omega
        rw [if_pos e0, e1, if_pos hz, hlen 0 _ hrest]
        unfold Info.workers
        omega
      · have e0 : ¬ (0 : Int) ≤ replicas - i.workers := by omega
        rw [if_neg e0, if_neg hz, hlen _ _ hrest, (ho _).length_eq]
        unfold Info.workers at *
        omega
  · cases hp

/-- C51: a scale-down leaves fewer workers than requested exactly if there are workers too many, and
the running ones and as many pending ones as there are too many are fewer than requested. -/
theorem C51_undershoot_partial (i : Info) (h : i.Tidy) (order : List Str → List Str)
    (ho : ∀ l, (order l).Perm l) (now : Rat) (replicas : Int) (del : List Str)
    (hp : i.plan order now replicas = .down del) :
    i.remaining del < replicas ↔
      replicas < i.workers ∧
        (i.sets .pending).length + 2 * ((i.sets .running).length : Int) < 2 * replicas := by
  obtain ⟨h1, h2⟩ := C51_down_partial i h order ho now replicas del hp
  rw [h2]
  unfold Info.workers at *
  split <;> omega

/-- C51 does not hold in full: with three pending workers and two requested, two are deleted. -/
theorem C51_violated : ¬ ∀ (i : Info) (_ : i.Tidy) (order : List Str → List Str)
    (_ : ∀ l, (order l).Perm l) (now : Rat) (replicas : Int) (del : List Str),
    i.plan order now replicas = .down del → replicas ≤ i.remaining del := by
  intro h
  have ht := watchPods_tidy
    (["a", "b", "c"].map (fun n => ⟨fun _ => (0, 0, 0), fun _ => false, 0, .update
      { ns := ['n'], name := n.toList, cluster := some ['c'], component := some workerName,
        phase := .pending, containers := [(workerName, .waiting)] }⟩)) ['n', '.', 'c']
  have := h _ ht id (fun l => List.Perm.refl l) 1000 2 [['a'], ['b']] (by decide +kernel)
  revert this
  decide +kernel

/-- Workers are missing, or too many. -/
example :
    let i : Info := { Info.init 0 with sets := fun k => match k with
      | .pending => [['a'], ['b'], ['c'], ['d'], ['e']]
      | .running => [['f']]
      | .failed => [['g']]
      | _ => [] }
    i.plan id 0 8 = .up 2 [['g']] ∧ i.plan id 0 6 = .down [['g']] ∧
      i.plan id 0 3 = .down [['a'], ['b'], ['g']] := by decide +kernel

/-- Seven workers in batches of 1, 2 and 4; with the third request failing, four are not sent. -/
example : batchCreate (fun _ => true) 7 = { sent := 7, bad := 0, unsent := 0, failed := false } ∧
    batchCreate (fun n => n ≠ 2) 7 = { sent := 3, bad := 1, unsent := 4, failed := true } := by
  decide +kernel

end Verif.Kube
