import Verif.Kube.Owned
/-! Property C165: what Kubernetes removes when a cluster, or its scheduler, is gone. -/
set_option linter.unusedSimpArgs false
set_option linter.unusedVariables false
namespace Verif.Kube.Owned

/-! ### Specification -/

/-- The collector has nothing to remove. -/
def Settled (s : State) : Prop := ∀ o ∈ s.objs, collectable s o = false

/-- There is a cluster with this name. -/
def Clustered (s : State) (ns name : Str) : Prop := ∃ c ∈ s.objs, c.kind = .cluster ∧ c.ns = ns ∧ c.name = name

/-- The cluster has a scheduler. -/
def Scheduled (s : State) (ns name : Str) : Prop :=
  ∃ p ∈ s.objs, p.kind = .pod ∧ p.ns = ns ∧ p.made = name ∧ p.name = "dask-scheduler-".toList ++ name

/-- Only the collector works, until it has nothing left to remove, after so many steps. -/
inductive Cleans : Nat → State → State → Prop where
  | done {s : State} (h : Settled s) : Cleans 0 s s
  | more {n : Nat} {s t : State} (uid : Nat) (h : ∃ o ∈ s.objs, o.uid = uid ∧ collectable s o = true)
      (r : Cleans n (step s (.collect uid)) t) : Cleans (n + 1) s t

/-! ### Invariant -/

/-- What is known of every object there ever was. -/
structure Fine (o : Res) : Prop where
  cluster : o.kind = .cluster → o.name = o.made ∧ o.owners = []
  owned : o.kind ≠ .cluster → (∃ u, o.owners = [⟨.cluster, o.made, u⟩]) ∨ (∃ u, o.owners = [⟨.pod, schedulerName o.made, u⟩])
  scheduler : o.kind = .pod → ∀ x, o.name = schedulerName x → o.made = x ∧ ∃ u, o.owners = [⟨.cluster, x, u⟩]
  kept : ∀ u, o.owners = [⟨.cluster, o.made, u⟩] → o.kind = .secret ∨ (o.kind = .pod ∧ o.name = schedulerName o.made)

theorem worker_name (a b x : Str) : "dask-worker-".toList ++ a ++ b ≠ schedulerName x := by
  intro h
  unfold schedulerName at h
  rw [show "dask-worker-".toList = ['d', 'a', 's', 'k', '-'] ++ ['w', 'o', 'r', 'k', 'e', 'r', '-'] from rfl,
    show "dask-scheduler-".toList = ['d', 'a', 's', 'k', '-'] ++ ['s', 'c', 'h', 'e', 'd', 'u', 'l', 'e', 'r', '-'] from rfl] at h
  simp only [List.append_assoc] at h
  have h := List.append_cancel_left h
  simp at h

theorem fine_object {s : State} (hs : ∀ o ∈ s.seen, Fine o) (op : Op) (g : op.Given s) (uid : Nat) (o : Res)
    (h : op.object uid = some o) : Fine o := by
  have follower : ∀ (c p : Res), (c ∈ s.seen ∧ c.kind = .cluster) ∧ p ∈ s.seen ∧ p.kind = .pod ∧ p.ns = c.ns ∧
      p.name = schedulerName c.name → refTo p = ⟨.pod, schedulerName c.name, p.uid⟩ := by
    rintro c p ⟨_, _, hk, _, hn⟩
    unfold refTo
    rw [hk, hn]
  have first : ∀ (c : Res), c ∈ s.seen ∧ c.kind = .cluster → refTo c = ⟨.cluster, c.name, c.uid⟩ := by
    rintro c ⟨_, hk⟩
    unfold refTo
    rw [hk]
  cases op with
  | cluster ns name =>
    cases h
    exact ⟨fun _ => ⟨rfl, rfl⟩, fun h => absurd rfl h, fun h => (by cases h), fun u h => (by cases h)⟩
  | secret c =>
    cases h
    exact ⟨fun h => (by cases h), fun _ => Or.inl ⟨c.uid, by rw [first c g]⟩, fun h => (by cases h), fun u h => Or.inl rfl⟩
  | scheduler c =>
    cases h
    refine ⟨fun h => (by cases h), fun _ => Or.inl ⟨c.uid, by rw [first c g]⟩, fun _ x hx => ?_, fun u h => Or.inr ⟨rfl, rfl⟩⟩
    have := List.append_cancel_left hx
    exact ⟨this, c.uid, by rw [first c g, this]⟩
  | service c p =>
    cases h
    refine ⟨fun h => (by cases h), fun _ => Or.inr ⟨p.uid, by rw [follower c p g]⟩, fun h => (by cases h), fun u h => ?_⟩
    rw [follower c p g] at h; cases h
  | route c p =>
    cases h
    refine ⟨fun h => (by cases h), fun _ => Or.inr ⟨p.uid, by rw [follower c p g]⟩, fun h => (by cases h), fun u h => ?_⟩
    rw [follower c p g] at h; cases h
  | routeTcp c p =>
    cases h
    refine ⟨fun h => (by cases h), fun _ => Or.inr ⟨p.uid, by rw [follower c p g]⟩, fun h => (by cases h), fun u h => ?_⟩
    rw [follower c p g] at h; cases h
  | worker c p suffix =>
    cases h
    refine ⟨fun h => (by cases h), fun _ => Or.inr ⟨p.uid, by rw [follower c p g.1]⟩, fun _ x hx => ?_, fun u h => ?_⟩
    · exact absurd hx (worker_name _ _ _)
    · rw [follower c p g.1] at h; cases h
  | delete uid => cases h
  | collect uid => cases h

theorem reach_fine {s : State} (h : Reach s) : (∀ o ∈ s.seen, Fine o) ∧ ∀ o ∈ s.objs, o ∈ s.seen := by
  induction h with
  | start => exact ⟨fun o h => (by cases h), fun o h => (by cases h)⟩
  | @step s h op g ih =>
    unfold Owned.step
    cases ho : op.object s.fresh with
    | some o =>
      dsimp only
      split
      · exact ih
      · refine ⟨fun x hx => ?_, fun x hx => ?_⟩
        · rcases List.mem_cons.1 hx with rfl | hx
          · exact fine_object ih.1 op g _ _ ho
          · exact ih.1 x hx
        · rcases List.mem_cons.1 hx with rfl | hx
          · exact List.mem_cons_self
          · exact List.mem_cons_of_mem _ (ih.2 x hx)
    | none =>
      cases op <;> first | exact ih | exact ⟨ih.1, fun x hx => ih.2 x (List.mem_filter.1 hx).1⟩

theorem present_iff {s : State} {ns : Str} {r : Ref} :
    present s ns r = true ↔ ∃ x ∈ s.objs, x.kind = r.kind ∧ x.ns = ns ∧ x.name = r.name ∧ x.uid = r.uid := by
  unfold present
  rw [List.any_eq_true]
  simp only [decide_eq_true_eq]

/-- With one owner: it is there. -/
theorem settled_owner {s : State} (hs : Settled s) {o : Res} (ho : o ∈ s.objs) {r : Ref} (hr : o.owners = [r]) :
    ∃ x ∈ s.objs, x.kind = r.kind ∧ x.ns = o.ns ∧ x.name = r.name ∧ x.uid = r.uid := by
  have := hs o ho
  unfold collectable at this
  rw [hr] at this
  simp at this
  exact present_iff.1 this

/-! ### Theorems -/

/-- C165: whatever was created, deleted and re-created, in any order and from however old a view, once the collector is
done every object belongs to a cluster that exists. -/
theorem C165_no_leak {s : State} (h : Reach s) (hs : Settled s) {o : Res} (ho : o ∈ s.objs) : Clustered s o.ns o.made := by
  obtain ⟨hf, hsub⟩ := reach_fine h
  have direct : ∀ o ∈ s.objs, ∀ u, o.owners = [⟨.cluster, o.made, u⟩] → Clustered s o.ns o.made := by
    intro o ho u hu
    obtain ⟨c, hc, h1, h2, h3, _⟩ := settled_owner hs ho hu
    exact ⟨c, hc, h1, h2, h3⟩
  have F := hf o (hsub o ho)
  by_cases hk : o.kind = .cluster
  · exact ⟨o, ho, hk, rfl, (F.cluster hk).1⟩
  · rcases F.owned hk with ⟨u, hu⟩ | ⟨u, hu⟩
    · exact direct o ho u hu
    · obtain ⟨p, hp, h1, h2, h3, _⟩ := settled_owner hs ho hu
      have G := hf p (hsub p hp)
      obtain ⟨e, v, hv⟩ := G.scheduler h1 _ h3
      have := direct p hp v (by rw [hv, e])
      rw [h2, e] at this
      exact this

/-- C165: once the collector is done, a cluster without a scheduler has nothing but its credentials: no service, no route
and no worker is left behind by a scheduler that is gone. -/
theorem C165_without_scheduler {s : State} (h : Reach s) (hs : Settled s) {ns name : Str} (hn : ¬ Scheduled s ns name)
    {o : Res} (ho : o ∈ s.objs) (h1 : o.ns = ns) (h2 : o.made = name) : o.kind = .cluster ∨ o.kind = .secret := by
  obtain ⟨hf, hsub⟩ := reach_fine h
  have F := hf o (hsub o ho)
  by_cases hk : o.kind = .cluster
  · exact Or.inl hk
  · rcases F.owned hk with ⟨u, hu⟩ | ⟨u, hu⟩
    · rcases F.kept u hu with h | ⟨hp, hnm⟩
      · exact Or.inr h
      · exact absurd ⟨o, ho, hp, h1, h2, by rw [hnm, h2]; rfl⟩ hn
    · obtain ⟨p, hp, e1, e2, e3, _⟩ := settled_owner hs ho hu
      obtain ⟨e, _⟩ := (hf p (hsub p hp)).scheduler e1 _ e3
      exact absurd ⟨p, hp, e1, by rw [e2, h1], by rw [e, h2], by rw [e3, h2]; rfl⟩ hn

theorem cleans_reach {n : Nat} {s t : State} (h : Cleans n s t) (hr : Reach s) : Reach t ∧ Settled t ∧ ∀ o ∈ t.objs, o ∈ s.objs := by
  induction h with
  | done h => exact ⟨hr, h, fun o ho => ho⟩
  | @more n s t uid hh r ih =>
    obtain ⟨a, b, c⟩ := ih (Reach.step hr (.collect uid) trivial)
    exact ⟨a, b, fun o ho => (List.mem_filter.1 (c o ho)).1⟩

/-- C165: once a cluster's object is gone, whenever and however that came about, the collector leaves nothing of the
cluster. -/
theorem C165_deleted {n : Nat} {s t : State} (h : Reach s) {ns name : Str} (hg : ¬ Clustered s ns name) (hc : Cleans n s t) :
    ∀ o ∈ t.objs, ¬ (o.ns = ns ∧ o.made = name) := by
  rintro o ho ⟨rfl, rfl⟩
  obtain ⟨hr, hs, hsub⟩ := cleans_reach hc h
  obtain ⟨c, hcm, e⟩ := C165_no_leak hr hs ho
  exact hg ⟨c, hsub c hcm, e⟩

private theorem collect_shrinks {s : State} {o : Res} (ho : o ∈ s.objs) (hc : collectable s o = true) :
    (step s (.collect o.uid)).objs.length < s.objs.length := by
  change (s.objs.filter _).length < _
  rw [List.length_filter_lt_length_iff_exists]
  exact ⟨o, ho, by simp [hc]⟩

/-- C165: the collector comes to an end, from every state, whatever it removes first, and in no more steps than there
are objects. -/
theorem C165_collector_ends (s : State) :
    (∃ n t, Cleans n s t) ∧ ∀ n t, Cleans n s t → n ≤ s.objs.length := by
  constructor
  · have key : ∀ k (s : State), s.objs.length ≤ k → ∃ n t, Cleans n s t := by
      intro k
      induction k with
      | zero =>
        intro s hl
        refine ⟨0, s, .done (fun o ho => ?_)⟩
        rw [List.length_eq_zero_iff.1 (Nat.le_zero.1 hl)] at ho
        cases ho
      | succ k ih =>
        intro s hl
        by_cases hs : Settled s
        · exact ⟨0, s, .done hs⟩
        · have : ∃ o ∈ s.objs, collectable s o = true := by
            apply Classical.byContradiction
            intro hc
            refine hs (fun o ho => ?_)
            cases he : collectable s o with
            | false => rfl
            | true => exact absurd ⟨o, ho, he⟩ hc
          obtain ⟨o, ho, hc⟩ := this
          have hlt := collect_shrinks ho hc
          obtain ⟨n, t, ht⟩ := ih (step s (.collect o.uid)) (by omega)
          exact ⟨n + 1, t, .more o.uid ⟨o, ho, rfl, hc⟩ ht⟩
    exact key _ s (Nat.le_refl _)
  · intro n t h
    induction h with
    | done h => exact Nat.zero_le _
    | @more n s t uid hh r ih =>
      obtain ⟨o, ho, rfl, hc⟩ := hh
      have := collect_shrinks ho hc
      omega

/-- The objects an operation was given. -/
def Op.givenTo : Op → List Res
  | .secret c | .scheduler c => [c]
  | .service c p | .route c p | .routeTcp c p | .worker c p _ => [c, p]
  | _ => []

/-- C165: the collector takes nothing that is in use: what was created for a cluster and a scheduler stays as long as
both of them do. -/
theorem C165_kept {s : State} (op : Op) (g : op.Given s) {uid : Nat} {o : Res} (h : op.object uid = some o)
    (t : State) (ht : ∀ x ∈ op.givenTo, x ∈ t.objs) : collectable t o = false := by
  have one : ∀ (x : Res) (ns : Str), x ∈ t.objs → x.ns = ns → present t ns (refTo x) = true :=
    fun x ns hx e => present_iff.2 ⟨x, hx, rfl, e, rfl, rfl⟩
  have fin : ∀ (r : Ref), o.owners = [r] → present t o.ns r = true → collectable t o = false := by
    intro r hr hp
    unfold collectable
    rw [hr]
    simp [hp]
  cases op with
  | cluster ns name => cases h; rfl
  | secret c => cases h; exact fin _ rfl (one c _ (ht c (by simp [Op.givenTo])) rfl)
  | scheduler c => cases h; exact fin _ rfl (one c _ (ht c (by simp [Op.givenTo])) rfl)
  | service c p => cases h; exact fin _ rfl (one p _ (ht p (by simp [Op.givenTo])) g.2.2.2.1)
  | route c p => cases h; exact fin _ rfl (one p _ (ht p (by simp [Op.givenTo])) g.2.2.2.1)
  | routeTcp c p => cases h; exact fin _ rfl (one p _ (ht p (by simp [Op.givenTo])) g.2.2.2.1)
  | worker c p suffix => cases h; exact fin _ rfl (one p _ (ht p (by simp [Op.givenTo])) g.1.2.2.2.1)
  | delete uid => cases h
  | collect uid => cases h

/-! ### A history -/

/-- A cluster with credentials, a scheduler, a service, both routes and two workers. -/
def someOps : List Op :=
  let c : Res := { kind := .cluster, ns := "n".toList, name := "a".toList, uid := 0, made := "a".toList, owners := [] }
  let p : Res := { kind := .pod, ns := "n".toList, name := "dask-scheduler-a".toList, uid := 2, made := "a".toList, owners := [refTo c] }
  [.cluster "n".toList "a".toList, .secret c, .scheduler c, .service c p, .route c p, .routeTcp c p, .worker c p "x".toList,
   .worker c p "y".toList]

private def after (ops : List Op) : State := ops.foldl step {}

/-- C165: nothing is in the way of an object but another of its kind, namespace and name. -/
theorem C165_made (s : State) (op : Op) {o : Res} (h : op.object s.fresh = some o) :
    o ∈ (step s op).objs ∨ ∃ x ∈ s.objs, x.kind = o.kind ∧ x.ns = o.ns ∧ x.name = o.name := by
  by_cases ht : taken s o = true
  · right
    unfold taken at ht
    obtain ⟨x, hx, hd⟩ := List.any_eq_true.1 ht
    exact ⟨x, hx, of_decide_eq_true hd⟩
  · left
    unfold step
    rw [h]
    simp only [ht]
    exact List.mem_cons_self

/-- C165: so a cluster has one of each at most. -/
theorem C165_one {s : State} (h : Reach s) : s.objs.Pairwise (fun x y => ¬ (x.kind = y.kind ∧ x.ns = y.ns ∧ x.name = y.name)) := by
  induction h with
  | start => exact List.Pairwise.nil
  | @step s h op g ih =>
    unfold Owned.step
    cases ho : op.object s.fresh with
    | some o =>
      dsimp only
      by_cases ht : taken s o = true
      · rw [if_pos ht]
        exact ih
      · rw [if_neg ht]
        refine List.pairwise_cons.2 ⟨fun x hx e => ht ?_, ih⟩
        unfold taken
        exact List.any_eq_true.2 ⟨x, hx, decide_eq_true ⟨e.1.symm, e.2.1.symm, e.2.2.symm⟩⟩
    | none =>
      cases op <;> dsimp only
      case delete uid => exact ih.filter _
      case collect uid => exact ih.filter _
      all_goals exact ih

/-- Eight objects; nothing to collect. -/
example : (after someOps).objs.length = 8 ∧ Settled (after someOps) := by
  constructor
  · decide +kernel
  · unfold Settled
    decide +kernel

/-- Without the scheduler, its service, routes and workers go; without the cluster, everything. -/
example : ((after (someOps ++ [.delete 2, .collect 3, .collect 4, .collect 5, .collect 6, .collect 7])).objs.map (·.uid)) = [1, 0] ∧
    ((after (someOps ++ [.delete 0, .collect 1, .collect 2, .collect 3, .collect 4, .collect 5, .collect 6, .collect 7])).objs) = [] := by
  decide +kernel

end Verif.Kube.Owned
