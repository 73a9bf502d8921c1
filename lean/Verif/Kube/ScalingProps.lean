import Verif.Kube.Scaling
import Verif.Kube.PodsProps
/-! Properties C51 and C52 over executions: expectations and the number of workers. -/
set_option linter.unusedSimpArgs false
namespace Verif.Kube

/-! ### Specification -/

/-- A reconciliation starts although expectations are open, more than ten minutes after the last one
that did something (which `C52_stamp` shows the stamp to be the time of). -/
def TimedOut (s : Sys) : SOp → Prop
  | .reconcile now _ => s.task = none ∧ s.info.fulfilled = false ∧ 600 < now - s.info.stamp
  | _ => False

/-- No more replicas than that are requested. -/
def Requests (max : Int) : SOp → Prop
  | .reconcile _ replicas => replicas ≤ max
  | _ => True

/-- The states of executions in which expectations do not time out and at most `max` replicas are
requested. -/
inductive SReach (order : List Str → List Str) (max : Int) : Sys → Prop
  | init {now} : SReach order max (.init now)
  | step {s op} : SReach order max s → ¬ TimedOut s op → Requests max op →
      SReach order max (s.step order op)

/-- The creations that have been started and not answered, or are still to be sent. -/
def Sys.openCreates (s : Sys) : Nat :=
  match s.task with
  | none => 0
  | some t => t.inflight + t.todo

/-- The deletions that have been started and not answered, or are still to be sent. -/
def Sys.openDeletes (s : Sys) : List Str :=
  match s.task with
  | none => []
  | some t => t.deleting ++ t.del

/-- Everything that was created or deleted has been seen, and no request is open. -/
def Sys.Settled (s : Sys) : Prop :=
  s.openCreates = 0 ∧ s.unseen = [] ∧ s.openDeletes = [] ∧ s.gone = []

/-! ### The invariant -/

/-- What holds in all executions. -/
private structure Inv (s : Sys) : Prop where
  creates : s.info.creates = s.openCreates + s.unseen.length
  deletes : s.info.deletes = s.openDeletes.length + s.gone.length
  unseen : s.unseen.Nodup
  fresh : ∀ x ∈ s.unseen, x ∉ s.info.all
  nodup : (s.openDeletes ++ s.gone).Nodup
  known : ∀ x ∈ s.openDeletes ++ s.gone, x ∈ s.info.all
  placed : ∃ f, Placed s.info f
  sets : ∀ k, (s.info.sets k).Nodup

private theorem Inv.tidy {s : Sys} (h : Inv s) : s.info.Tidy := by
  obtain ⟨f, hf⟩ := h.placed
  refine ⟨h.sets, fun k k' n hk hk' => ?_⟩
  rw [(hf n).2] at hk hk'
  exact Option.some.inj (hk.symm.trans hk')

private theorem Inv.subset {s : Sys} (h : Inv s) (k : Kind) (n : Str) (hn : n ∈ s.info.sets k) :
    n ∈ s.info.all := by
  obtain ⟨f, hf⟩ := h.placed
  rw [(hf n).1, ((hf n).2 k).1 hn]; rfl

private theorem length_sDel {s : List Str} {x : Str} (h : s.Nodup) (hx : x ∈ s) :
    (sDel s x).length + 1 = s.length := by
  induction s with
  | nil => cases hx
  | cons a s ih =>
    rw [List.nodup_cons] at h
    unfold sDel
    rw [List.filter_cons]
    by_cases e : a = x
    · subst e
      have : s.filter (fun y => decide (y ≠ a)) = s := by
        rw [List.filter_eq_self]
        intro b hb
        simp only [decide_eq_true_eq]
        rintro rfl; exact h.1 hb
      simp only [ne_eq, decide_not] at this
      simp [this]
    · have hx' : x ∈ s := by
        rcases List.mem_cons.1 hx with e' | e'
        · exact absurd e'.symm e
        · exact e'
      have := ih h.2 hx'
      unfold sDel at this
      simp only [ne_eq, decide_not] at this
      simp [e, this]

private theorem sDel_not_mem {s : List Str} {x : Str} (hx : x ∉ s) : sDel s x = s := by
  unfold sDel
  rw [List.filter_eq_self]
  intro a ha
  simp only [decide_eq_true_eq]
  rintro rfl; exact hx ha

private theorem nodup_sUnion {s t : List Str} (hs : s.Nodup) (ht : t.Nodup) : (sUnion s t).Nodup := by
  unfold sUnion
  refine List.nodup_append.2 ⟨hs, ht.filter _, ?_⟩
  intro a ha b hb e
  rw [List.mem_filter] at hb
  subst e
  simp [ha] at hb

private theorem nodup_slice {l : List Str} (h : l.Nodup) (n : Int) : (pySlice l n).Nodup := by
  unfold pySlice; split <;> exact List.Nodup.sublist (List.take_sublist _ _) h

private theorem mem_slice {l : List Str} {n : Int} {x : Str} (h : x ∈ pySlice l n) : x ∈ l := by
  unfold pySlice at h; split at h <;> exact List.mem_of_mem_take h

private theorem inv_fulfilled {s : Sys} (h : Inv s) : s.info.fulfilled = true ↔ s.Settled := by
  unfold Info.fulfilled Sys.Settled
  rw [decide_eq_true_eq, h.creates, h.deletes, ← List.length_eq_zero_iff, ← List.length_eq_zero_iff,
    ← List.length_eq_zero_iff]
  omega

private theorem placed_expect {i : Info} {f : Str → Option Kind} (h : Placed i f) (c d : Int) (now : Rat) :
    Placed (i.expect c d now) f := h

private theorem inv_init (now : Rat) : Inv (.init now) := by
  refine ⟨rfl, rfl, List.nodup_nil, ?_, List.nodup_nil, ?_, ⟨fun _ => none, ?_⟩, fun _ => List.nodup_nil⟩
  · intro x hx; cases hx
  · intro x hx; cases hx
  · intro n; simp [Sys.init, Info.init]

private theorem up_nodup {s : Sys} (h : Inv s) :
    (sUnion (s.info.sets .succeeded) (s.info.sets .failed)).Nodup :=
  nodup_sUnion (h.sets _) (h.sets _)

private theorem up_known {s : Sys} (h : Inv s) (x : Str)
    (hx : x ∈ sUnion (s.info.sets .succeeded) (s.info.sets .failed)) : x ∈ s.info.all := by
  rw [mem_sUnion] at hx
  rcases hx with hx | hx <;> exact h.subset _ _ hx

private theorem down_nodup {s : Sys} (h : Inv s) (order : List Str → List Str)
    (ho : ∀ l, (order l).Perm l) (n : Int) :
    (pySlice (order (s.info.sets .pending)) n ++
      sUnion (s.info.sets .succeeded) (s.info.sets .failed)).Nodup := by
  refine List.nodup_append.2 ⟨nodup_slice ((ho _).nodup_iff.2 (h.sets _)) _, up_nodup h, ?_⟩
  intro a ha b hb e
  subst e
  have ha' := (ho _).mem_iff.1 (mem_slice ha)
  rw [mem_sUnion] at hb
  rcases hb with hb | hb <;> cases h.tidy.disjoint _ _ a ha' hb

private theorem down_known {s : Sys} (h : Inv s) (order : List Str → List Str)
    (ho : ∀ l, (order l).Perm l) (n : Int) (x : Str)
    (hx : x ∈ pySlice (order (s.info.sets .pending)) n ++
      sUnion (s.info.sets .succeeded) (s.info.sets .failed)) : x ∈ s.info.all := by
  rcases List.mem_append.1 hx with hx | hx
  · exact h.subset _ _ ((ho _).mem_iff.1 (mem_slice hx))
  · exact up_known h x hx

/-- What a reconciliation does, if it does anything. -/
private theorem reconcile_cases {order : List Str → List Str} (s : Sys) (now : Rat) (replicas : Int) :
    s.reconcile order now replicas = s ∨
    (s.task = none ∧ s.info.shouldTrigger now = true ∧ ∃ (count : Nat) (del : List Str),
      s.reconcile order now replicas = { s with
        info := s.info.expect count del.length now
        task := some { size := 1, inflight := 0, todo := count, bad := false, del, deleting := [] } } ∧
      ((0 < s.info.delta replicas ∧ count = (s.info.delta replicas).toNat ∧
          del = sUnion (s.info.sets .succeeded) (s.info.sets .failed)) ∨
        (count = 0 ∧ del = pySlice (order (s.info.sets .pending)) (s.info.delta replicas) ++
          sUnion (s.info.sets .succeeded) (s.info.sets .failed)))) := by
  unfold Sys.reconcile
  cases ht : s.task with
  | some t => exact Or.inl rfl
  | none =>
    dsimp only
    unfold Info.plan
    cases htr : s.info.shouldTrigger now with
    | false => left; simp
    | true =>
      simp only [if_true]
      by_cases hd : s.info.delta replicas > 0
      · rw [if_pos hd]
        exact Or.inr ⟨trivial, trivial, _, _, rfl, Or.inl ⟨hd, rfl, rfl⟩⟩
      · rw [if_neg hd]
        dsimp only
        split
        · exact Or.inl rfl
        · exact Or.inr ⟨trivial, trivial, 0, _, rfl, Or.inr ⟨rfl, rfl⟩⟩

private theorem settled_of_trigger {s : Sys} (h : Inv s) {now : Rat} {replicas : Int}
    (hto : ¬ TimedOut s (.reconcile now replicas)) (ht : s.task = none)
    (htr : s.info.shouldTrigger now = true) : s.Settled := by
  rw [← inv_fulfilled h]
  cases hf : s.info.fulfilled with
  | true => rfl
  | false =>
    unfold Info.shouldTrigger at htr
    rw [hf, Bool.false_or] at htr
    exact absurd ⟨ht, hf, of_decide_eq_true htr⟩ hto

private theorem inv_reconcile {order : List Str → List Str} (ho : ∀ l, (order l).Perm l) {s : Sys}
    (h : Inv s) (now : Rat) (replicas : Int) (hto : ¬ TimedOut s (.reconcile now replicas)) :
    Inv (s.reconcile order now replicas) := by
  rcases reconcile_cases (order := order) s now replicas with e | ⟨ht, htr, count, del, e, hcd⟩
  · rw [e]; exact h
  · obtain ⟨s1, s2, s3, s4⟩ := settled_of_trigger h hto ht htr
    have hdel : del.Nodup ∧ ∀ x ∈ del, x ∈ s.info.all := by
      rcases hcd with ⟨_, _, rfl⟩ | ⟨_, rfl⟩
      · exact ⟨up_nodup h, up_known h⟩
      · exact ⟨down_nodup h order ho _, down_known h order ho _⟩
    rw [e]
    refine ⟨?_, ?_, h.unseen, h.fresh, ?_, ?_, ?_, h.sets⟩
    · simp [Info.expect, Sys.openCreates, s2]
    · simp [Info.expect, Sys.openDeletes, s4]
    · simpa [Sys.openDeletes, s4] using hdel.1
    · intro x hx
      simp only [Sys.openDeletes, s4, List.nil_append, List.append_nil] at hx
      exact hdel.2 x hx
    · obtain ⟨f, hf⟩ := h.placed
      exact ⟨f, hf⟩

private theorem inv_nextBatch {s : Sys} (h : Inv s) : Inv s.nextBatch := by
  unfold Sys.nextBatch
  cases ht : s.task with
  | none => exact h
  | some t =>
    have hc := h.creates
    have hd := h.deletes
    have hn := h.nodup
    have hk := h.known
    simp only [Sys.openCreates, Sys.openDeletes, ht] at hc hd hn hk
    dsimp only
    by_cases h0 : t.inflight = 0
    · rw [if_pos h0]
      cases hb : t.bad with
      | true =>
        simp only [if_true]
        refine ⟨?_, ?_, h.unseen, h.fresh, ?_, ?_, h.placed, h.sets⟩
        · simp only [Sys.openCreates]; omega
        · simp only [Sys.openDeletes]; exact hd
        · simp only [Sys.openDeletes]; exact hn
        · simp only [Sys.openDeletes]; exact hk
      | false =>
        simp only [Bool.false_eq_true, if_false]
        split
        · refine ⟨?_, ?_, h.unseen, h.fresh, ?_, ?_, h.placed, h.sets⟩
          · simp only [Sys.openCreates]; omega
          · simp only [Sys.openDeletes]; exact hd
          · simp only [Sys.openDeletes]; exact hn
          · simp only [Sys.openDeletes]; exact hk
        · refine ⟨?_, ?_, h.unseen, h.fresh, ?_, ?_, h.placed, h.sets⟩
          · simp only [Sys.openCreates]; omega
          · simp only [Sys.openDeletes, List.append_nil]; exact hd
          · simp only [Sys.openDeletes, List.append_nil]; exact hn
          · simp only [Sys.openDeletes, List.append_nil]; exact hk
    · rw [if_neg h0]; exact h

private theorem inv_created {s : Sys} (h : Inv s) (pod : Str) : Inv (s.created pod) := by
  unfold Sys.created
  cases ht : s.task with
  | none => exact h
  | some t =>
    have hc := h.creates
    have hd := h.deletes
    have hn := h.nodup
    have hk := h.known
    simp only [Sys.openCreates, Sys.openDeletes, ht] at hc hd hn hk
    dsimp only
    split
    · rename_i hg
      obtain ⟨g1, g2, g3⟩ := hg
      refine ⟨?_, ?_, ?_, ?_, ?_, ?_, h.placed, h.sets⟩
      · simp only [Sys.openCreates, List.length_append, List.length_singleton]; omega
      · simp only [Sys.openDeletes]; exact hd
      · refine List.nodup_append.2 ⟨h.unseen, by simp, ?_⟩
        intro a ha b hb e
        rw [List.mem_singleton.1 hb] at e
        exact g3 (e ▸ ha)
      · intro x hx
        rcases List.mem_append.1 hx with hx | hx
        · exact h.fresh x hx
        · rw [List.mem_singleton.1 hx]; exact g2
      · simp only [Sys.openDeletes]; exact hn
      · simp only [Sys.openDeletes]; exact hk
    · exact h

private theorem inv_createFailed {s : Sys} (h : Inv s) : Inv s.createFailed := by
  unfold Sys.createFailed
  cases ht : s.task with
  | none => exact h
  | some t =>
    have hc := h.creates
    have hd := h.deletes
    have hn := h.nodup
    have hk := h.known
    simp only [Sys.openCreates, Sys.openDeletes, ht] at hc hd hn hk
    dsimp only
    split
    · refine ⟨?_, ?_, h.unseen, h.fresh, ?_, ?_, h.placed, h.sets⟩
      · simp only [Sys.openCreates]; omega
      · simp only [Sys.openDeletes]; exact hd
      · simp only [Sys.openDeletes]; exact hn
      · simp only [Sys.openDeletes]; exact hk
    · exact h

private theorem deleting_split {a b c : List Str} {x : Str} (h : (a ++ b ++ c).Nodup) (hx : x ∈ a) :
    (sDel a x ++ b ++ (c ++ [x])).Nodup ∧ (sDel a x ++ b ++ c).Nodup := by
  have h' := List.nodup_append.1 h
  have h'' := List.nodup_append.1 h'.1
  have hx1 : x ∉ b := fun hb => h''.2.2 x hx x hb rfl
  have hx2 : x ∉ c := fun hc => h'.2.2 x (List.mem_append.2 (Or.inl hx)) x hc rfl
  have hsub : (sDel a x ++ b ++ c).Nodup :=
    List.Nodup.sublist ((List.filter_sublist.append_right b).append_right c) h
  refine ⟨?_, hsub⟩
  rw [← List.append_assoc]
  refine List.nodup_append.2 ⟨hsub, by simp, ?_⟩
  intro y hy z hz e
  rw [List.mem_singleton.1 hz] at e
  subst e
  rcases List.mem_append.1 hy with hy | hy
  · rcases List.mem_append.1 hy with hy | hy
    · rw [mem_sDel] at hy; exact hy.1 rfl
    · exact hx1 hy
  · exact hx2 hy

private theorem inv_deletedPod {s : Sys} (h : Inv s) (pod : Str) : Inv (s.deletedPod pod) := by
  unfold Sys.deletedPod
  cases ht : s.task with
  | none => exact h
  | some t =>
    have hc := h.creates
    have hd := h.deletes
    have hn := h.nodup
    have hk := h.known
    simp only [Sys.openCreates, Sys.openDeletes, ht] at hc hd hn hk
    dsimp only
    split
    · rename_i hg
      have hnd : t.deleting.Nodup := (List.nodup_append.1 (List.nodup_append.1 hn).1).1
      have hl := length_sDel hnd hg
      refine ⟨?_, ?_, h.unseen, h.fresh, ?_, ?_, h.placed, h.sets⟩
      · simp only [Sys.openCreates]; exact hc
      · simp only [Sys.openDeletes, List.length_append, List.length_singleton] at hd ⊢; omega
      · simp only [Sys.openDeletes]; exact (deleting_split hn hg).1
      · intro x hx
        simp only [Sys.openDeletes, List.mem_append, mem_sDel, List.mem_singleton] at hx hk
        apply hk
        rcases hx with (hx | hx) | hx | hx
        · exact Or.inl (Or.inl hx.2)
        · exact Or.inl (Or.inr hx)
        · exact Or.inr hx
        · rw [hx]; exact Or.inl (Or.inl hg)
    · exact h

private theorem inv_deleteFailed {s : Sys} (h : Inv s) (pod : Str) : Inv (s.deleteFailed pod) := by
  unfold Sys.deleteFailed
  cases ht : s.task with
  | none => exact h
  | some t =>
    have hc := h.creates
    have hd := h.deletes
    have hn := h.nodup
    have hk := h.known
    simp only [Sys.openCreates, Sys.openDeletes, ht] at hc hd hn hk
    dsimp only
    split
    · rename_i hg
      have hnd : t.deleting.Nodup := (List.nodup_append.1 (List.nodup_append.1 hn).1).1
      have hl := length_sDel hnd hg
      refine ⟨?_, ?_, h.unseen, h.fresh, ?_, ?_, h.placed, h.sets⟩
      · simp only [Sys.openCreates]; exact hc
      · simp only [Sys.openDeletes, List.length_append] at hd ⊢; omega
      · simp only [Sys.openDeletes]; exact (deleting_split hn hg).2
      · intro x hx
        simp only [Sys.openDeletes, List.mem_append, mem_sDel] at hx hk
        apply hk
        rcases hx with (hx | hx) | hx
        · exact Or.inl (Or.inl hx.2)
        · exact Or.inl (Or.inr hx)
        · exact Or.inr hx
    · exact h

private theorem inv_finish {s : Sys} (h : Inv s) : Inv s.finish := by
  unfold Sys.finish
  cases ht : s.task with
  | none => exact h
  | some t =>
    have hc := h.creates
    have hd := h.deletes
    have hn := h.nodup
    have hk := h.known
    simp only [Sys.openCreates, Sys.openDeletes, ht] at hc hd hn hk
    dsimp only
    split
    · rename_i hg
      obtain ⟨g1, _, g3, g4, g5⟩ := hg
      rw [g4, g5] at hd hn hk
      refine ⟨?_, ?_, h.unseen, h.fresh, ?_, ?_, h.placed, h.sets⟩
      · simp only [Sys.openCreates]; omega
      · simp only [Sys.openDeletes]; exact hd
      · simp only [Sys.openDeletes]; exact hn
      · simp only [Sys.openDeletes]; exact hk
    · exact h

private theorem update_creates (i : Info) (kind : Kind) (pod : Str) :
    (i.update kind pod).1.creates = (if pod ∈ i.all then i.creates else i.creates - 1) ∧
    (i.update kind pod).1.deletes = i.deletes := by
  unfold Info.update
  dsimp only
  split <;> exact ⟨rfl, rfl⟩

private theorem inv_seen {s : Sys} (h : Inv s) (pod : Str) (kind : Kind) : Inv (s.seen pod kind) := by
  unfold Sys.seen
  split
  · rename_i hg
    obtain ⟨u1, u2⟩ := update_creates s.info kind pod
    have oc : ∀ i u, Sys.openCreates { s with info := i, unseen := u } = s.openCreates := fun _ _ => rfl
    have od : ∀ i u, Sys.openDeletes { s with info := i, unseen := u } = s.openDeletes := fun _ _ => rfl
    have hc := h.creates
    refine ⟨?_, ?_, nodup_sDel h.unseen, ?_, ?_, ?_, ?_, ?_⟩
    · rw [oc]
      dsimp only
      rw [u1]
      by_cases ha : pod ∈ s.info.all
      · have hnu : pod ∉ s.unseen := fun hu => h.fresh pod hu ha
        rw [if_pos ha, sDel_not_mem hnu]; exact hc
      · have hu : pod ∈ s.unseen := hg.1.resolve_right ha
        have := length_sDel h.unseen hu
        rw [if_neg ha]; omega
    · rw [od]; dsimp only; rw [u2]; exact h.deletes
    · intro x hx
      dsimp only at hx ⊢
      rw [mem_sDel] at hx
      rw [mem_update_all]
      rintro (e | e)
      · exact hx.1 e
      · exact h.fresh x hx.2 e
    · rw [od]; exact h.nodup
    · intro x hx
      rw [od] at hx
      dsimp only
      rw [mem_update_all]
      exact Or.inr (h.known x hx)
    · obtain ⟨f, hf⟩ := h.placed
      exact ⟨_, placed_update hf kind pod⟩
    · exact (tidy_update h.tidy kind pod).nodup
  · exact h

private theorem inv_seenDeleted {s : Sys} (h : Inv s) (pod : Str) : Inv (s.seenDeleted pod) := by
  unfold Sys.seenDeleted
  split
  · rename_i hg
    have hall : pod ∈ s.info.all := h.known pod (List.mem_append.2 (Or.inr hg))
    have oc : ∀ i u, Sys.openCreates { s with info := i, gone := u } = s.openCreates := fun _ _ => rfl
    have od : ∀ i u, Sys.openDeletes { s with info := i, gone := u } = s.openDeletes := fun _ _ => rfl
    have hn := List.nodup_append.1 h.nodup
    have hl := length_sDel hn.2.1 hg
    have e : (s.info.deleted pod).creates = s.info.creates ∧
        (s.info.deleted pod).deletes = s.info.deletes - 1 ∧
        ∀ x, x ∈ (s.info.deleted pod).all ↔ x ≠ pod ∧ x ∈ s.info.all := by
      unfold Info.deleted
      rw [if_pos hall]
      exact ⟨rfl, rfl, fun x => mem_sDel⟩
    refine ⟨?_, ?_, h.unseen, ?_, ?_, ?_, ?_, ?_⟩
    · rw [oc]; dsimp only; rw [e.1]; exact h.creates
    · rw [od]; dsimp only; rw [e.2.1, h.deletes]; omega
    · intro x hx
      dsimp only at hx ⊢
      rw [e.2.2]
      exact fun hh => h.fresh x hx hh.2
    · rw [od]
      exact List.Nodup.sublist (List.filter_sublist.append_left _) h.nodup
    · intro x hx
      rw [od] at hx
      dsimp only at hx ⊢
      rw [e.2.2]
      rcases List.mem_append.1 hx with hx | hx
      · exact ⟨fun ex => hn.2.2 x hx pod hg ex, h.known x (List.mem_append.2 (Or.inl hx))⟩
      · rw [mem_sDel] at hx
        exact ⟨hx.1, h.known x (List.mem_append.2 (Or.inr hx.2))⟩
    · obtain ⟨f, hf⟩ := h.placed
      exact ⟨_, placed_deleted hf pod⟩
    · exact (tidy_deleted h.tidy pod).nodup
  · exact h

private theorem inv_reach {order : List Str → List Str} (ho : ∀ l, (order l).Perm l) {max : Int}
    {s : Sys} (h : SReach order max s) : Inv s := by
  induction h with
  | init => exact inv_init _
  | @step s op _ hto _ ih =>
    cases op with
    | reconcile now replicas => exact inv_reconcile ho ih now replicas hto
    | nextBatch => exact inv_nextBatch ih
    | created pod => exact inv_created ih pod
    | createFailed => exact inv_createFailed ih
    | deletedPod pod => exact inv_deletedPod ih pod
    | deleteFailed pod => exact inv_deleteFailed ih pod
    | finish => exact inv_finish ih
    | seen pod kind => exact inv_seen ih pod kind
    | seenDeleted pod => exact inv_seenDeleted ih pod

/-! ### C52 -/

/-- C52: as long as something created or deleted has not been seen, or a request is open, no scaling is
started, unless the expectations time out. (The pods of the cluster are created and deleted by the
controller only, and requests that fail have no effect: the operations of `Sys` are these. Missing:
others deleting workers, see `C52_violated`.) -/
theorem C52_waits_partial (order : List Str → List Str) (ho : ∀ l, (order l).Perm l) (max : Int)
    (s : Sys) (h : SReach order max s) (hs : ¬ s.Settled) (now : Rat) (replicas : Int)
    (he : now - s.info.stamp ≤ 600) : s.reconcile order now replicas = s := by
  have he : s.info.expired now = false := decide_eq_false (Rat.not_lt.2 he)
  have hi := inv_reach ho h
  rcases reconcile_cases (order := order) s now replicas with e | ⟨_, htr, _⟩
  · exact e
  · exfalso
    unfold Info.shouldTrigger at htr
    rw [he, Bool.or_false, inv_fulfilled hi] at htr
    exact hs htr

/-- C52: failed requests leave no expectations open: when every request has been answered and
everything has been seen, the next reconciliation is not held back. -/
theorem C52_not_stuck_partial (order : List Str → List Str) (ho : ∀ l, (order l).Perm l) (max : Int)
    (s : Sys) (h : SReach order max s) (ht : s.task = none) (hu : s.unseen = []) (hg : s.gone = [])
    (now : Rat) : s.info.shouldTrigger now = true := by
  have hi := inv_reach ho h
  have : s.Settled := by
    refine ⟨?_, hu, ?_, hg⟩
    · unfold Sys.openCreates; rw [ht]
    · unfold Sys.openDeletes; rw [ht]
  unfold Info.shouldTrigger
  rw [(inv_fulfilled hi).2 this, Bool.true_or]

/-- C52: what `stamp` is: the time of the last reconciliation that started requests. -/
theorem C52_stamp (order : List Str → List Str) (s : Sys) (op : SOp) :
    (s.step order op).info.stamp =
      match op with
      | .reconcile now _ => if s.task = none ∧ (s.step order op).task ≠ none then now else s.info.stamp
      | _ => s.info.stamp := by
  cases op with
  | reconcile now replicas =>
    change (s.reconcile order now replicas).info.stamp =
      if s.task = none ∧ (s.reconcile order now replicas).task ≠ none then now else s.info.stamp
    rcases reconcile_cases (order := order) s now replicas with e | ⟨ht, _, count, del, e, _⟩
    · rw [e, if_neg]; exact fun h => h.2 h.1
    · rw [e, if_pos ⟨ht, fun h => (by cases h)⟩]; rfl
  | nextBatch =>
    change s.nextBatch.info.stamp = s.info.stamp
    unfold Sys.nextBatch; repeat' (first | rfl | split)
  | created pod =>
    change (s.created pod).info.stamp = s.info.stamp
    unfold Sys.created; repeat' (first | rfl | split)
  | createFailed =>
    change s.createFailed.info.stamp = s.info.stamp
    unfold Sys.createFailed; repeat' (first | rfl | split)
  | deletedPod pod =>
    change (s.deletedPod pod).info.stamp = s.info.stamp
    unfold Sys.deletedPod; repeat' (first | rfl | split)
  | deleteFailed pod =>
    change (s.deleteFailed pod).info.stamp = s.info.stamp
    unfold Sys.deleteFailed; repeat' (first | rfl | split)
  | finish =>
    change s.finish.info.stamp = s.info.stamp
    unfold Sys.finish; repeat' (first | rfl | split)
  | seen pod kind =>
    change (s.seen pod kind).info.stamp = s.info.stamp
    unfold Sys.seen Info.update; dsimp only; repeat' (first | rfl | split)
  | seenDeleted pod =>
    change (s.seenDeleted pod).info.stamp = s.info.stamp
    unfold Sys.seenDeleted Info.deleted; repeat' (first | rfl | split)

/-- C52: after ten minutes expectations no longer hold a reconciliation back, whatever is missing. -/
theorem C52_timeout (order : List Str → List Str) (s : Sys) (ht : s.task = none) (now : Rat)
    (replicas : Int) (he : 600 < now - s.info.stamp) (hm : 0 < s.info.delta replicas) :
    (s.reconcile order now replicas).task =
      some { size := 1, inflight := 0, todo := (s.info.delta replicas).toNat, bad := false
             del := sUnion (s.info.sets .succeeded) (s.info.sets .failed), deleting := [] } := by
  unfold Sys.reconcile Info.plan Info.shouldTrigger Info.expired
  rw [ht, decide_eq_true he, Bool.or_true, if_pos rfl, if_pos hm]

/-! ### C51 over executions -/

private theorem length_sAdd (s : List Str) (x : Str) :
    (sAdd s x).length = if x ∈ s then s.length else s.length + 1 := by
  unfold sAdd; split <;> simp

private theorem length_sDel' {s : List Str} {x : Str} (h : s.Nodup) :
    (sDel s x).length = if x ∈ s then s.length - 1 else s.length := by
  split
  · rename_i hx
    have := length_sDel h hx
    omega
  · rename_i hx
    rw [sDel_not_mem hx]

private theorem workers_seen {i : Info} (h : i.Tidy) (kind : Kind) (pod : Str) :
    (i.update kind pod).1.workers ≤ i.workers + 1 ∧
    (pod ∈ i.sets .pending ∨ pod ∈ i.sets .running → (i.update kind pod).1.workers ≤ i.workers) ∧
    (kind = .succeeded ∨ kind = .failed → (i.update kind pod).1.workers ≤ i.workers) := by
  unfold Info.workers
  rw [update_sets, update_sets]
  have hp := length_sDel' (x := pod) (h.nodup .pending)
  have hr := length_sDel' (x := pod) (h.nodup .running)
  have hp2 := length_sAdd (i.sets .pending) pod
  have hr2 := length_sAdd (i.sets .running) pod
  have pos1 : pod ∈ i.sets .pending → 0 < (i.sets .pending).length := List.length_pos_of_mem
  have pos2 : pod ∈ i.sets .running → 0 < (i.sets .running).length := List.length_pos_of_mem
  have dis : pod ∈ i.sets .pending → pod ∈ i.sets .running → False := fun a b => by
    cases h.disjoint _ _ pod a b
  by_cases m1 : pod ∈ i.sets .pending <;> by_cases m2 : pod ∈ i.sets .running
  · exact (dis m1 m2).elim
  all_goals
    simp only [m1, m2, if_true, if_false] at hp hr hp2 hr2
    first
      | have p1 := pos1 m1
      | skip
    first
      | have p2 := pos2 m2
      | skip
    cases kind <;> simp [m1, m2, hp, hr, hp2, hr2] <;> omega

private theorem workers_deleted {i : Info} (h : i.Tidy) (pod : Str) :
    (i.deleted pod).workers ≤ i.workers := by
  unfold Info.deleted
  split
  · unfold Info.workers
    dsimp only
    rw [length_sDel' (h.nodup .pending), length_sDel' (h.nodup .running)]
    split <;> split <;> omega
  · exact Int.le_refl _

/-- C51: whatever is created, fails or is seen meanwhile, the workers of a cluster, with those created
but not seen and those still to be created, are never more than the largest number requested. -/
theorem C51_no_overshoot (order : List Str → List Str) (ho : ∀ l, (order l).Perm l) (max : Int)
    (hm : 0 ≤ max) (s : Sys) (h : SReach order max s) :
    s.info.workers + s.unseen.length + s.openCreates ≤ max := by
  induction h with
  | init => exact hm
  | @step s op hr hto hrq ih =>
    have hi := inv_reach ho hr
    cases op with
    | reconcile now replicas =>
      change (s.reconcile order now replicas).info.workers +
        (s.reconcile order now replicas).unseen.length +
        (s.reconcile order now replicas).openCreates ≤ max
      rcases reconcile_cases (order := order) s now replicas with e | ⟨ht, htr, count, del, e, hcd⟩
      · rw [e]; exact ih
      · obtain ⟨s1, s2, s3, s4⟩ := settled_of_trigger hi hto ht htr
        rw [e]
        have hw : ∀ c d, (s.info.expect c d now).workers = s.info.workers := fun _ _ => rfl
        simp only [Sys.openCreates, hw, s2, List.length_nil]
        have hrq' : replicas ≤ max := hrq
        rcases hcd with ⟨hd, hc, _⟩ | ⟨hc, _⟩
        · rw [delta_eq hi.tidy] at hd hc
          omega
        · rw [s2] at ih
          simp only [List.length_nil] at ih
          omega
    | nextBatch =>
      change s.nextBatch.info.workers + s.nextBatch.unseen.length + s.nextBatch.openCreates ≤ max
      unfold Sys.nextBatch
      cases ht : s.task with
      | none => exact ih
      | some t =>
        simp only [Sys.openCreates, ht] at ih
        dsimp only
        split
        · split
          · simp only [Sys.openCreates, Info.workers] at ih ⊢; omega
          · split
            · simp only [Sys.openCreates]; omega
            · simp only [Sys.openCreates]; omega
        · simp only [Sys.openCreates, ht]; exact ih
    | created pod =>
      change (s.created pod).info.workers + (s.created pod).unseen.length + (s.created pod).openCreates ≤ max
      unfold Sys.created
      cases ht : s.task with
      | none => exact ih
      | some t =>
        simp only [Sys.openCreates, ht] at ih
        dsimp only
        split
        · simp only [Sys.openCreates, List.length_append, List.length_singleton]; omega
        · simp only [Sys.openCreates, ht]; exact ih
    | createFailed =>
      change s.createFailed.info.workers + s.createFailed.unseen.length + s.createFailed.openCreates ≤ max
      unfold Sys.createFailed
      cases ht : s.task with
      | none => exact ih
      | some t =>
        simp only [Sys.openCreates, ht] at ih
        dsimp only
        split
        · simp only [Sys.openCreates, Info.workers] at ih ⊢; omega
        · simp only [Sys.openCreates, ht]; exact ih
    | deletedPod pod =>
      change (s.deletedPod pod).info.workers + (s.deletedPod pod).unseen.length +
        (s.deletedPod pod).openCreates ≤ max
      unfold Sys.deletedPod
      cases ht : s.task with
      | none => exact ih
      | some t =>
        simp only [Sys.openCreates, ht] at ih
        dsimp only
        split
        · simp only [Sys.openCreates]; exact ih
        · simp only [Sys.openCreates, ht]; exact ih
    | deleteFailed pod =>
      change (s.deleteFailed pod).info.workers + (s.deleteFailed pod).unseen.length +
        (s.deleteFailed pod).openCreates ≤ max
      unfold Sys.deleteFailed
      cases ht : s.task with
      | none => exact ih
      | some t =>
        simp only [Sys.openCreates, ht] at ih
        dsimp only
        split
        · simp only [Sys.openCreates, Info.workers] at ih ⊢; exact ih
        · simp only [Sys.openCreates, ht]; exact ih
    | finish =>
      change s.finish.info.workers + s.finish.unseen.length + s.finish.openCreates ≤ max
      unfold Sys.finish
      cases ht : s.task with
      | none => exact ih
      | some t =>
        simp only [Sys.openCreates, ht] at ih
        dsimp only
        split
        · simp only [Sys.openCreates]; omega
        · simp only [Sys.openCreates, ht]; exact ih
    | seen pod kind =>
      change (s.seen pod kind).info.workers + (s.seen pod kind).unseen.length +
        (s.seen pod kind).openCreates ≤ max
      unfold Sys.seen
      split
      · rename_i hg
        have oc : ∀ i u, Sys.openCreates { s with info := i, unseen := u } = s.openCreates :=
          fun _ _ => rfl
        rw [oc]
        dsimp only
        obtain ⟨w1, w2, w3⟩ := workers_seen hi.tidy kind pod
        by_cases hu : pod ∈ s.unseen
        · have := length_sDel hi.unseen hu
          omega
        · rw [sDel_not_mem hu]
          have ha : pod ∈ s.info.all := hg.1.resolve_left hu
          have : (s.info.update kind pod).1.workers ≤ s.info.workers := by
            obtain ⟨f, hf⟩ := hi.placed
            obtain ⟨k, hk⟩ := Option.isSome_iff_exists.1 ((hf pod).1.1 ha)
            have hk' := ((hf pod).2 k).2 hk
            cases k with
            | pending => exact w2 (Or.inl hk')
            | running => exact w2 (Or.inr hk')
            | succeeded => exact w3 (hg.2 (Or.inl hk'))
            | failed => exact w3 (hg.2 (Or.inr hk'))
          omega
      · exact ih
    | seenDeleted pod =>
      change (s.seenDeleted pod).info.workers + (s.seenDeleted pod).unseen.length +
        (s.seenDeleted pod).openCreates ≤ max
      unfold Sys.seenDeleted
      split
      · have oc : ∀ i u, Sys.openCreates { s with info := i, gone := u } = s.openCreates :=
          fun _ _ => rfl
        rw [oc]
        have := workers_deleted hi.tidy pod
        dsimp only
        omega
      · exact ih

/-! ### An execution -/

/-- Two workers are requested and created; one fails; it is deleted and replaced. -/
private def someOps : List SOp :=
  [.reconcile 0 2, .nextBatch, .created ['a'], .nextBatch, .seen ['a'] .pending, .created ['b'],
   .nextBatch, .finish, .seen ['b'] .running, .seen ['a'] .running, .seen ['a'] .failed,
   .reconcile 5 2, .nextBatch, .created ['c'], .nextBatch, .deletedPod ['a']]

/-- Whether an operation is one of those of `SReach`. -/
private def okOp (max : Int) (s : Sys) : SOp → Bool
  | .reconcile now replicas =>
    (s.task.isSome || s.info.fulfilled || decide (now - s.info.stamp ≤ 600)) && decide (replicas ≤ max)
  | _ => true

private theorem okOp_spec {max : Int} {s : Sys} {op : SOp} (h : okOp max s op = true) :
    ¬ TimedOut s op ∧ Requests max op := by
  cases op with
  | reconcile now replicas =>
    simp only [okOp, Bool.and_eq_true, Bool.or_eq_true, Bool.not_eq_true', decide_eq_true_eq] at h
    refine ⟨?_, h.2⟩
    rintro ⟨h1, h2, h3⟩
    rcases h.1 with (h' | h') | h'
    · rw [h1] at h'; cases h'
    · rw [h2] at h'; cases h'
    · exact Rat.not_lt.2 h' h3
  | _ => exact ⟨id, trivial⟩

/-- Whether expectations never time out in an execution. -/
private def okRun (max : Int) : Sys → List SOp → Bool
  | _, [] => true
  | s, op :: ops => okOp max s op && okRun max (s.step id op) ops

private theorem reach_ok {max : Int} (ops : List SOp) (s : Sys) (h : SReach id max s)
    (hok : okRun max s ops = true) : SReach id max (ops.foldl (Sys.step id) s) := by
  induction ops generalizing s with
  | nil => exact h
  | cons op ops ih =>
    unfold okRun at hok
    rw [Bool.and_eq_true] at hok
    have := okOp_spec hok.1
    exact ih _ (.step h this.1 this.2) hok.2

/-- The execution is one of those of the theorems, and it is not settled: a new pod and a deletion have
not been seen. -/
example :
    let s := someOps.foldl (Sys.step id) (.init 0)
    SReach id 2 s ∧ s.unseen = [['c']] ∧ s.gone = [['a']] ∧ s.info.creates = 1 ∧ s.info.deletes = 1 ∧
      s.info.workers = 1 := by
  refine ⟨reach_ok someOps _ .init ?_, ?_⟩
  · decide +kernel
  · decide +kernel

/-- C52 does not hold in full: when the deletion of a failed worker has not been seen yet and another
worker is deleted by someone else, the expectations are taken to be met. -/
theorem C52_violated : ¬ ∀ (s : Sys) (pod : Str), SReach id 2 s → pod ∈ s.info.all → pod ∉ s.gone →
    s.gone ≠ [] → (s.info.deleted pod).fulfilled = false := by
  intro h
  have := h ((someOps ++ [SOp.seen ['c'] .running]).foldl (Sys.step id) (.init 0)) ['b']
    (reach_ok _ _ .init (by decide +kernel)) (by decide +kernel) (by decide +kernel) (by decide +kernel)
  revert this
  decide +kernel

end Verif.Kube
