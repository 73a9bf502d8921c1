import Verif.Kube.OwnedProps
/-! C165: what is made for one cluster is never in the way of another, and the collector leaves what has an owner. -/
set_option linter.unusedSimpArgs false
set_option linter.unusedVariables false
namespace Verif.Kube.Owned

/-- How the objects are called that are made for a cluster. -/
def Named (o : Res) : Prop :=
  match o.kind with
  | .cluster => o.name = o.made
  | .secret => o.name = "dask-credentials-".toList ++ o.made
  | .service | .route | .routeTcp => o.name = "dask-".toList ++ o.made
  | .pod => o.name = "dask-scheduler-".toList ++ o.made ∨
      ∃ suffix, '-' ∉ suffix ∧ o.name = "dask-worker-".toList ++ o.made ++ '-' :: suffix

theorem named_object {s : State} (op : Op) (g : op.Given s) (uid : Nat) (o : Res) (h : op.object uid = some o) : Named o := by
  cases op with
  | worker c p suffix => cases h; exact Or.inr ⟨suffix, g.2, rfl⟩
  | scheduler c => cases h; exact Or.inl rfl
  | delete uid => cases h
  | collect uid => cases h
  | _ => cases h; rfl

theorem reach_named {s : State} (h : Reach s) : ∀ o ∈ s.objs, Named o := by
  induction h with
  | start => intro o ho; cases ho
  | @step s h op g ih =>
    unfold Owned.step
    cases ho : op.object s.fresh with
    | some o =>
      dsimp only
      split
      · exact ih
      · intro x hx
        rcases List.mem_cons.1 hx with rfl | hx
        · exact named_object op g _ _ ho
        · exact ih x hx
    | none =>
      cases op <;> first | exact ih | exact fun x hx => ih x (List.mem_filter.1 hx).1

theorem last_dash (a b x y : Str) (hx : '-' ∉ x) (hy : '-' ∉ y) (h : a ++ '-' :: x = b ++ '-' :: y) : a = b := by
  have cut : ∀ (a x : Str), '-' ∉ x → ((a ++ '-' :: x).reverse.dropWhile (fun c => c != '-')).drop 1 = a.reverse := by
    intro a x hx
    have hr : (a ++ '-' :: x).reverse = x.reverse ++ '-' :: a.reverse := by simp
    have hne : ∀ c ∈ x.reverse, (c != '-') = true := fun c hc => by
      rw [bne_iff_ne]; exact fun e => hx (e ▸ List.mem_reverse.mp hc)
    rw [hr, List.dropWhile_append_of_pos hne]
    simp
  have e := cut a x hx
  rw [h, cut b y hy] at e
  exact (List.reverse_inj.1 e).symm

/-- The name of an object tells the cluster it was made for. -/
theorem named_made {x o : Res} (hx : Named x) (ho : Named o) (hk : x.kind = o.kind) (hn : x.name = o.name) :
    x.made = o.made := by
  unfold Named at hx ho
  rw [hk] at hx
  revert hx ho
  cases o.kind <;> intro hx ho <;> dsimp only at hx ho
  case pod =>
    rcases hx with hx | ⟨u, hu, hx⟩ <;> rcases ho with ho | ⟨v, hv, ho⟩
    · rw [hx, ho] at hn; exact List.append_cancel_left hn
    · rw [hx, ho] at hn; exact absurd hn.symm (worker_name _ _ _)
    · rw [hx, ho] at hn; exact absurd hn (worker_name _ _ _)
    · rw [hx, ho] at hn; exact List.append_cancel_left (last_dash _ _ _ _ hu hv hn)
  case cluster => exact hx.symm.trans (hn.trans ho)
  all_goals
    rw [hx, ho] at hn; exact List.append_cancel_left hn

/-- C165: clusters are not in each other's way: Kubernetes refuses an object for a cluster only if there is one of the same
kind that was made for a cluster of the same name in the same namespace. -/
theorem C165_apart {s : State} (h : Reach s) (op : Op) (g : op.Given s) {o : Res} (ho : op.object s.fresh = some o)
    (hn : ∀ x ∈ s.objs, ¬ (x.kind = o.kind ∧ x.ns = o.ns ∧ x.made = o.made)) : o ∈ (step s op).objs := by
  rcases C165_made s op ho with hm | ⟨x, hx, e1, e2, e3⟩
  · exact hm
  · exact absurd ⟨e1, e2, named_made (reach_named h x hx) (named_object op g _ _ ho) e1 e3⟩ (hn x hx)

/-- C165: the collector leaves whatever has no owner at all, or has one that is still there. -/
theorem C165_collector_spares (s : State) (uid : Nat) {o : Res} (ho : o ∈ s.objs)
    (h : o.owners = [] ∨ ∃ r ∈ o.owners, ∃ x ∈ s.objs, x.kind = r.kind ∧ x.ns = o.ns ∧ x.name = r.name ∧ x.uid = r.uid) :
    o ∈ (step s (.collect uid)).objs := by
  have hc : collectable s o = false := by
    unfold collectable
    rcases h with h | ⟨r, hr, hx⟩
    · rw [h]; rfl
    · rw [Bool.and_eq_false_iff]
      right
      rw [← Bool.not_eq_true, List.all_eq_true]
      intro hall
      have := hall r hr
      rw [present_iff.2 hx] at this
      cases this
  show o ∈ s.objs.filter _
  rw [List.mem_filter]
  exact ⟨ho, by rw [hc]; simp⟩

/-- C165: the collector removes no object but the one it is about. -/
theorem C165_collector_one (s : State) (uid : Nat) {o : Res} (ho : o ∈ s.objs) (h : o.uid ≠ uid) :
    o ∈ (step s (.collect uid)).objs := by
  show o ∈ s.objs.filter _
  rw [List.mem_filter]
  exact ⟨ho, by simp [h]⟩

/-- Two clusters, and workers with the same suffix for both. -/
def twoOps : List Op :=
  let c : Res := { kind := .cluster, ns := "n".toList, name := "a".toList, uid := 0, made := "a".toList, owners := [] }
  let d : Res := { kind := .cluster, ns := "n".toList, name := "a-b".toList, uid := 1, made := "a-b".toList, owners := [] }
  let p : Res := { kind := .pod, ns := "n".toList, name := "dask-scheduler-a".toList, uid := 2, made := "a".toList, owners := [refTo c] }
  let q : Res := { kind := .pod, ns := "n".toList, name := "dask-scheduler-a-b".toList, uid := 3, made := "a-b".toList, owners := [refTo d] }
  [.cluster "n".toList "a".toList, .cluster "n".toList "a-b".toList, .scheduler c, .scheduler d, .worker c p "x".toList,
    .worker d q "x".toList]

example : (twoOps.foldl step {}).objs.length = 6 := by decide +kernel

end Verif.Kube.Owned
