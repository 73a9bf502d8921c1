import Verif.KubeLoop.CrewProps
/-! Property C132, second half: a running cluster on Kubernetes always gets to where it has the workers it was asked
for. -/
set_option linter.unusedSimpArgs false
set_option linter.unusedVariables false
namespace Verif.KubeLoop
open Verif.Kube

/-! ### Specification -/

/-- What may be relied on to happen: the controller does its work, the API server does what it is asked to, the
informers show what there is, backoffs end, and containers get their first status. Deletions fail only if the pod is
gone already. Nothing is asked for, nothing ends, nobody else deletes pods, and the controller is not killed. -/
def Smooth (s : Crew) : CrewOp → Prop
  | .show | .begin _ | .nextBatch | .created _ | .deleted _ | .finish | .fire | .showPod _ _ => True
  | .deleteFailed pod => pod ∉ s.pods
  | .turn pod kind => s.state pod = none ∧ kind = .pending
  | _ => False

/-- Some such steps lead from one state to the other. -/
inductive Smoothly (order : List Str → List Str) : Crew → Crew → Prop
  | refl (s) : Smoothly order s s
  | step {s t} (op) : Smooth s op → Smoothly order (s.step order op) t → Smoothly order s t

variable {order : List Str → List Str}

theorem Smoothly.trans {s t u : Crew} (h : Smoothly order s t) (h' : Smoothly order t u) : Smoothly order s u := by
  induction h with
  | refl => exact h'
  | step op ho _ ih => exact .step op ho (ih h')

theorem Smoothly.reach {s t : Crew} (h : Smoothly order s t) (hr : CrewReach order Acquainted s) :
    CrewReach order Acquainted t := by
  induction h with
  | refl => exact hr
  | step op ho _ ih =>
    refine ih (.step hr ?_)
    cases op <;> first | exact trivial | exact ho.elim

/-! ### Names and lists -/

theorem fresh_name (l : List Str) : ∃ p, p ∉ l := by
  have : ∃ n, ∀ x ∈ l, x.length ≤ n := by
    induction l with
    | nil => exact ⟨0, fun x h => (by cases h)⟩
    | cons a l ih =>
      obtain ⟨n, h⟩ := ih
      refine ⟨n + a.length, fun x hx => ?_⟩
      rcases List.mem_cons.1 hx with rfl | hx
      · omega
      · have := h x hx; omega
  obtain ⟨n, h⟩ := this
  refine ⟨List.replicate (n + 1) 'a', fun hm => ?_⟩
  have := h _ hm
  rw [List.length_replicate] at this
  omega

private theorem sDel_le (l : List Str) (x : Str) : (sDel l x).length ≤ l.length := List.length_filter_le _ _

private theorem sDel_lt {l : List Str} {x : Str} (h : x ∈ l) : (sDel l x).length < l.length := by
  unfold sDel
  rw [List.length_filter_lt_length_iff_exists]
  exact ⟨x, h, by simp⟩

private theorem filter_sDel {l d : List Str} {p : Str} (rest : List Str) (hd : ∀ x, x ∈ rest ↔ x ∈ d ∧ x ≠ p) (hp : p ∈ d) :
    (sDel l p).filter (fun x => decide (x ∉ rest)) = l.filter (fun x => decide (x ∉ d)) := by
  unfold sDel
  rw [List.filter_filter]
  refine List.filter_congr (fun x _ => ?_)
  by_cases e : x = p
  · subst e
    simp [hp]
  · simp [hd, e]

private theorem keep_all (l : List Str) : l.filter (fun p => decide (p ∉ ([] : List Str))) = l :=
  List.filter_eq_self.2 (fun x _ => decide_eq_true (List.not_mem_nil))

private theorem length_without {l d : List Str} (hl : l.Nodup) (hd : d.Nodup) (hs : ∀ x ∈ d, x ∈ l) :
    (l.filter (fun x => decide (x ∉ d))).length + d.length = l.length := by
  have h1 : (l.filter (fun x => decide (x ∈ d))).length = d.length := by
    refine Nat.le_antisymm ?_ ?_
    · exact List.Nodup.length_le_of_subset (hl.filter _) (fun x hx => by simpa using (List.mem_filter.1 hx).2)
    · exact List.Nodup.length_le_of_subset hd (fun x hx => List.mem_filter.2 ⟨hs x hx, by simpa using hx⟩)
  have h2 : ∀ m : List Str, (m.filter (fun x => decide (x ∉ d))).length + (m.filter (fun x => decide (x ∈ d))).length = m.length := by
    intro m
    induction m with
    | nil => rfl
    | cons a m ih =>
      rw [List.filter_cons, List.filter_cons]
      by_cases e : a ∈ d
      · simp only [e, not_true_eq_false, decide_false, decide_true, Bool.false_eq_true, if_false, if_true, List.length_cons]
        omega
      · simp only [e, not_false_eq_true, decide_false, decide_true, Bool.false_eq_true, if_false, if_true, List.length_cons]
        omega
  rw [← h1]
  exact h2 l

/-! ### A task comes to an end -/

/-- The batches of a task are not empty. -/
private theorem sized {s : Crew} (h : CrewReach order Acquainted s) : ∀ t, s.task = some t → 1 ≤ t.size := by
  induction h with
  | init => intro t e; cases e
  | @step s op _ _ ih =>
    intro t e
    cases op with
    | ask n => exact ih t e
    | «show» => exact ih t e
    | «begin» now =>
      simp only [Crew.step, Crew.begin] at e
      split at e
      · split at e
        · exact ih t e
        · cases e; exact Nat.le_refl 1
        · split at e
          · exact ih t e
          · cases e; exact Nat.le_refl 1
      · exact ih t e
    | nextBatch =>
      simp only [Crew.step, Crew.nextBatch] at e
      split at e
      · rename_i hn; rw [hn] at e; cases e
      · rename_i x hx
        have := ih x hx
        split at e
        · split at e
          · cases e; exact this
          · split at e
            · cases e
              change 1 ≤ x.size * 2
              omega
            · cases e; exact this
        · exact ih t e
    | created pod =>
      simp only [Crew.step, Crew.created] at e
      split at e
      · exact ih t e
      · rename_i x hx
        split at e
        · cases e; exact ih x hx
        · exact ih t e
    | createLost pod =>
      simp only [Crew.step, Crew.createLost] at e
      split at e
      · exact ih t e
      · rename_i x hx
        split at e
        · cases e; exact ih x hx
        · exact ih t e
    | createFailed =>
      simp only [Crew.step, Crew.createFailed] at e
      split at e
      · exact ih t e
      · rename_i x hx
        split at e
        · cases e; exact ih x hx
        · exact ih t e
    | deleted pod =>
      simp only [Crew.step, Crew.deleted] at e
      split at e
      · exact ih t e
      · rename_i x hx
        split at e
        · cases e; exact ih x hx
        · exact ih t e
    | deleteLost pod =>
      simp only [Crew.step, Crew.deleteLost] at e
      split at e
      · exact ih t e
      · rename_i x hx
        split at e
        · cases e; exact ih x hx
        · exact ih t e
    | deleteFailed pod =>
      simp only [Crew.step, Crew.deleteFailed] at e
      split at e
      · exact ih t e
      · rename_i x hx
        split at e
        · cases e; exact ih x hx
        · exact ih t e
    | finish =>
      simp only [Crew.step, Crew.finish] at e
      split at e
      · exact ih t e
      · split at e
        · cases e
        · exact ih t e
    | fire =>
      simp only [Crew.step, Crew.fire] at e
      split at e <;> exact ih t e
    | turn pod kind =>
      simp only [Crew.step, Crew.turn] at e
      split at e <;> exact ih t e
    | lost pod =>
      simp only [Crew.step, Crew.lost] at e
      split at e <;> exact ih t e
    | showOld pod kind now =>
      simp only [Crew.step, Crew.showOld] at e
      split at e <;> exact ih t e
    | showPod pod now =>
      simp only [Crew.step, Crew.showPod] at e
      split at e
      · split at e
        · split at e <;> exact ih t e
        · exact ih t e
      · exact ih t e
    | restart now => cases e
    | poke => exact ih t e

/-- What a task leaves: the pods to be deleted are gone, and there are new ones without a status. -/
private structure Out (s t : Crew) (dels new : List Str) : Prop where
  pods : t.pods = s.pods.filter (fun p => decide (p ∉ dels)) ++ new
  state : ∀ p ∈ s.pods, p ∉ dels → t.state p = s.state p
  blank : ∀ p ∈ new, p ∉ s.pods ∧ t.state p = none
  replicas : t.replicas = s.replicas

private def work (t : Task) : Nat :=
  3 * t.todo + 2 * t.inflight + (if t.bad then 1 else 0) + 2 * t.del.length + t.deleting.length

private theorem drain (m : Nat) : ∀ (s : Crew) (t : Task), s.task = some t → 1 ≤ t.size → work t ≤ m →
    ∃ u new, Smoothly order s u ∧ u.task = none ∧ Out s u (t.deleting ++ t.del) new ∧
      new.length = t.inflight + (if t.bad then 0 else t.todo) := by
  induction m with
  | zero =>
    intro s t ht hz hw
    have h0 : t.todo = 0 ∧ t.inflight = 0 ∧ t.bad = false ∧ t.del = [] ∧ t.deleting = [] := by
      unfold work at hw
      refine ⟨by omega, by omega, ?_, List.eq_nil_of_length_eq_zero (by omega), List.eq_nil_of_length_eq_zero (by omega)⟩
      cases hb : t.bad with
      | false => rfl
      | true => rw [hb] at hw; simp only [if_true] at hw; omega
    obtain ⟨h1, h2, h3, h4, h5⟩ := h0
    have e : s.step order .finish = { s with task := none, failed := false, timer := s.timer || s.failed } := by
      simp only [Crew.step, Crew.finish, ht]
      rw [if_pos ⟨h2, h3, h1, h4, h5⟩]
    refine ⟨{ s with task := none, failed := false, timer := s.timer || s.failed }, [],
      .step .finish trivial (by rw [e]; exact .refl _), rfl, ⟨?_, fun p _ _ => rfl, fun p h => (by cases h), rfl⟩, ?_⟩
    · rw [h4, h5, List.append_nil, List.append_nil, keep_all]
    · rw [h1, h2, h3]
      rfl
  | succ m ih =>
    intro s t ht hz hw
    by_cases h1 : 0 < t.inflight
    · -- a creation is answered
      obtain ⟨pod, hp⟩ := fresh_name (s.info.all ++ s.pods ++ s.news ++ t.del ++ t.deleting)
      simp only [List.mem_append, not_or] at hp
      obtain ⟨⟨⟨⟨p1, p2⟩, p3⟩, p4⟩, p5⟩ := hp
      have e : s.step order (.created pod) = { s.add pod with task := some { t with inflight := t.inflight - 1 } } := by
        simp only [Crew.step, Crew.created, ht]
        rw [if_pos ⟨h1, p1, p2, p3, p4, p5⟩]
      obtain ⟨u, new, a, b, c, d⟩ := ih { s.add pod with task := some { t with inflight := t.inflight - 1 } }
        { t with inflight := t.inflight - 1 } rfl hz (by unfold work at hw ⊢; dsimp only; omega)
      refine ⟨u, pod :: new, .step (.created pod) trivial (by rw [e]; exact a), b, ⟨?_, fun p hm hnd => ?_, fun p hm => ?_, c.replicas⟩, ?_⟩
      · rw [c.pods]
        change (s.pods ++ [pod]).filter _ ++ new = _
        rw [List.filter_append, List.append_assoc]
        congr 1
        rw [List.filter_cons_of_pos (by simp [p4, p5])]
        rfl
      · have hne : p ≠ pod := fun h => p2 (h ▸ hm)
        rw [c.state p (List.mem_append_left _ hm) hnd]
        change (if p = pod then none else s.state p) = _
        rw [if_neg hne]
      · rcases List.mem_cons.1 hm with rfl | hm
        · refine ⟨p2, ?_⟩
          rw [c.state p (List.mem_append_right _ List.mem_cons_self) (by simp [p4, p5])]
          change (if p = p then none else s.state p) = _
          rw [if_pos rfl]
        · obtain ⟨n1, n2⟩ := c.blank p hm
          exact ⟨fun h => n1 (List.mem_append_left _ h), n2⟩
      · rw [List.length_cons, d]
        dsimp only
        omega
    · have h1' : t.inflight = 0 := by omega
      by_cases h2 : t.bad = true
      · -- give up
        have e : s.step order .nextBatch = { s with
            info := { s.info with creates := s.info.creates - t.todo }, task := some { t with todo := 0, bad := false } } := by
          simp only [Crew.step, Crew.nextBatch, ht]
          rw [if_pos h1', if_pos h2]
        obtain ⟨u, new, a, b, c, d⟩ := ih { s with
            info := { s.info with creates := s.info.creates - t.todo }, task := some { t with todo := 0, bad := false } }
          { t with todo := 0, bad := false } rfl hz (by
            unfold work at hw ⊢; rw [h2] at hw; simp only [if_true] at hw; dsimp only
            simp only [Bool.false_eq_true, if_false]; omega)
        refine ⟨u, new, .step .nextBatch trivial (by rw [e]; exact a), b, ⟨c.pods, c.state, c.blank, c.replicas⟩, ?_⟩
        rw [d, h2]
        simp
      · have h2' : t.bad = false := by cases h : t.bad <;> simp_all
        by_cases h3 : 0 < t.todo
        · -- the next batch
          have e : s.step order .nextBatch = { s with task := some { t with size := t.size * 2, inflight := min t.size t.todo, todo := t.todo - min t.size t.todo } } := by
            simp only [Crew.step, Crew.nextBatch, ht]
            rw [if_pos h1', if_neg h2, if_pos h3]
          obtain ⟨u, new, a, b, c, d⟩ := ih { s with task := some { t with size := t.size * 2, inflight := min t.size t.todo, todo := t.todo - min t.size t.todo } }
            { t with size := t.size * 2, inflight := min t.size t.todo, todo := t.todo - min t.size t.todo } rfl
            (by dsimp only; omega) (by unfold work at hw ⊢; dsimp only; omega)
          refine ⟨u, new, .step .nextBatch trivial (by rw [e]; exact a), b, ⟨c.pods, c.state, c.blank, c.replicas⟩, ?_⟩
          rw [d, h2', h1']
          simp only [Bool.false_eq_true, if_false]
          omega
        · have h3' : t.todo = 0 := by omega
          by_cases h4 : t.del = []
          · cases h5 : t.deleting with
            | nil =>
              have e : s.step order .finish = { s with task := none, failed := false, timer := s.timer || s.failed } := by
                simp only [Crew.step, Crew.finish, ht]
                rw [if_pos ⟨h1', h2', h3', h4, h5⟩]
              refine ⟨{ s with task := none, failed := false, timer := s.timer || s.failed }, [],
                .step .finish trivial (by rw [e]; exact .refl _), rfl, ⟨?_, fun p _ _ => rfl, fun p h => (by cases h), rfl⟩, ?_⟩
              · rw [h4, List.append_nil, List.append_nil, keep_all]
              · rw [h3', h1', h2']
                rfl
            | cons p rest =>
              have hp : p ∈ t.deleting := by rw [h5]; exact List.mem_cons_self
              have hlt := sDel_lt hp
              have hdels : ∀ x, x ∈ sDel t.deleting p ++ t.del ↔ x ∈ (p :: rest) ++ t.del ∧ x ≠ p := by
                intro x
                rw [h4, List.append_nil, List.append_nil, ← h5]
                unfold sDel
                simp
              by_cases h6 : p ∈ s.pods
              · have e : s.step order (.deleted p) = { s.drop p with task := some { t with deleting := sDel t.deleting p } } := by
                  simp only [Crew.step, Crew.deleted, ht]
                  rw [if_pos ⟨hp, h6⟩]
                obtain ⟨u, new, a, b, c, d⟩ := ih { s.drop p with task := some { t with deleting := sDel t.deleting p } }
                  { t with deleting := sDel t.deleting p } rfl hz (by unfold work at hw ⊢; dsimp only; omega)
                have hnew : new = [] := List.eq_nil_of_length_eq_zero (by rw [d]; simp [h1', h2', h3'])
                subst hnew
                refine ⟨u, [], .step (.deleted p) trivial (by rw [e]; exact a), b,
                  ⟨?_, fun q hq hnd => ?_, fun q hq => (by cases hq), c.replicas⟩, ?_⟩
                · rw [c.pods]
                  change (sDel s.pods p).filter _ ++ [] = _
                  rw [List.append_nil, List.append_nil]
                  exact filter_sDel _ hdels (by simp)
                · have hqp : q ≠ p := fun h => hnd (by rw [h]; simp)
                  exact c.state q (by change q ∈ sDel s.pods p; unfold sDel; simp [hq, hqp])
                    (fun h => hnd ((hdels q).1 h).1)
                · rw [h1', h2', h3']
                  rfl
              · have e : s.step order (.deleteFailed p) = s.noDelete t p := by
                  simp only [Crew.step, Crew.deleteFailed, ht]
                  rw [if_pos hp]
                obtain ⟨u, new, a, b, c, d⟩ := ih (s.noDelete t p)
                  { t with deleting := sDel t.deleting p } rfl hz (by unfold work at hw ⊢; dsimp only; omega)
                refine ⟨u, new, .step (.deleteFailed p) h6 (by rw [e]; exact a), b,
                  ⟨?_, fun q hq hnd => c.state q hq (fun h => hnd ((hdels q).1 h).1), c.blank, c.replicas⟩, d⟩
                rw [c.pods]
                congr 1
                change s.pods.filter _ = _
                refine List.filter_congr (fun x hx => ?_)
                have hxp : x ≠ p := fun h => h6 (h ▸ hx)
                have := hdels x
                by_cases hy : x ∈ sDel t.deleting p ++ t.del
                · simp only [hy, this.1 hy, not_true_eq_false, decide_false]
                · have hz' : x ∉ (p :: rest) ++ t.del := fun h => hy (this.2 ⟨h, hxp⟩)
                  simp only [hy, hz', not_false_eq_true, decide_true]
          · -- the deletions are sent
            have e : s.step order .nextBatch = { s with task := some { t with del := [], deleting := t.deleting ++ t.del } } := by
              simp only [Crew.step, Crew.nextBatch, ht]
              rw [if_pos h1', if_neg h2, if_neg h3]
            have hl : 0 < t.del.length := List.length_pos_iff.2 h4
            obtain ⟨u, new, a, b, c, d⟩ := ih { s with task := some { t with del := [], deleting := t.deleting ++ t.del } }
              { t with del := [], deleting := t.deleting ++ t.del } rfl hz (by
                unfold work at hw ⊢; dsimp only; rw [List.length_append, List.length_nil]; omega)
            refine ⟨u, new, .step .nextBatch trivial (by rw [e]; exact a), b, ⟨?_, fun q hq hnd => c.state q hq (by dsimp only; rwa [List.append_nil]), c.blank, c.replicas⟩, d⟩
            rw [c.pods]
            dsimp only
            rw [List.append_nil]

/-! ### Then everything is shown -/

private theorem turn_all (l : List Str) : ∀ (s : Crew), (∀ p ∈ l, p ∈ s.pods) → ∃ u, Smoothly order s u ∧ u.task = s.task ∧
    u.pods = s.pods ∧ u.replicas = s.replicas ∧
    ∀ p, u.state p = if p ∈ l ∧ s.state p = none then some .pending else s.state p := by
  induction l with
  | nil => exact fun s _ => ⟨s, .refl s, rfl, rfl, rfl, fun p => (by simp)⟩
  | cons a l ih =>
    intro s hl
    have ha := hl a List.mem_cons_self
    by_cases hs : s.state a = none
    · have e : s.step order (.turn a .pending) =
          { s with state := fun p => if p = a then some .pending else s.state p, news := sAdd s.news a } := by
        simp only [Crew.step, Crew.turn]
        rw [if_pos ha]
      obtain ⟨u, u1, u2, u3, u4, u5⟩ := ih
        { s with state := fun p => if p = a then some .pending else s.state p, news := sAdd s.news a }
        (fun p hp => hl p (List.mem_cons_of_mem _ hp))
      refine ⟨u, .step (.turn a .pending) ⟨hs, rfl⟩ (by rw [e]; exact u1), u2, u3, u4, fun p => ?_⟩
      rw [u5]
      dsimp only
      by_cases hp : p = a
      · subst hp
        simp [hs]
      · simp [hp]
    · obtain ⟨u, u1, u2, u3, u4, u5⟩ := ih s (fun p hp => hl p (List.mem_cons_of_mem _ hp))
      refine ⟨u, u1, u2, u3, u4, fun p => ?_⟩
      rw [u5]
      by_cases hp : p = a
      · subst hp
        simp [hs]
      · simp [hp]

private theorem show_all (n : Nat) : ∀ (s : Crew), s.news.length ≤ n → ∃ u, Smoothly order s u ∧ u.news = [] ∧ u.task = s.task ∧
    u.pods = s.pods ∧ u.replicas = s.replicas ∧ u.state = s.state := by
  induction n with
  | zero => exact fun s h => ⟨s, .refl s, List.eq_nil_of_length_eq_zero (by omega), rfl, rfl, rfl, rfl⟩
  | succ n ih =>
    intro s h
    cases hn : s.news with
    | nil => exact ⟨s, .refl s, hn, rfl, rfl, rfl, rfl⟩
    | cons p l =>
      have hp : p ∈ s.news := by rw [hn]; exact List.mem_cons_self
      have hlt := sDel_lt hp
      have e : (s.step order (.showPod p 0)).news = sDel s.news p ∧ (s.step order (.showPod p 0)).task = s.task ∧
          (s.step order (.showPod p 0)).pods = s.pods ∧ (s.step order (.showPod p 0)).replicas = s.replicas ∧
          (s.step order (.showPod p 0)).state = s.state := by
        simp only [Crew.step, Crew.showPod]
        rw [if_pos hp]
        split
        · split <;> exact ⟨rfl, rfl, rfl, rfl, rfl⟩
        · exact ⟨rfl, rfl, rfl, rfl, rfl⟩
      obtain ⟨e1, e2, e3, e4, e5⟩ := e
      obtain ⟨u, u1, u2, u3, u4, u5, u6⟩ := ih (s.step order (.showPod p 0)) (by rw [e1]; omega)
      exact ⟨u, .step (.showPod p 0) trivial u1, u2, u3.trans e2, u4.trans e3, u5.trans e4, u6.trans e5⟩

/-- No task is under way, everything was shown, all containers have a status, and the cluster is in the queue. -/
private structure Rested (s : Crew) : Prop where
  task : s.task = none
  news : s.news = []
  shown : s.shown = s.replicas
  queued : s.queued = true
  timer : s.timer = false
  status : ∀ p ∈ s.pods, s.state p ≠ none

private theorem rest (s : Crew) (ht : s.task = none) : ∃ u, Smoothly order s u ∧ Rested u ∧ u.pods = s.pods ∧
    u.replicas = s.replicas ∧ ∀ p ∈ s.pods, u.state p = some ((s.state p).getD .pending) := by
  obtain ⟨a, a1, a2, a3, a4, a5⟩ := turn_all (order := order) s.pods s (fun p h => h)
  obtain ⟨b, b1, b2, b3, b4, b5, b6⟩ := show_all (order := order) _ a (Nat.le_refl _)
  have hst : ∀ p ∈ s.pods, b.state p = some ((s.state p).getD .pending) := by
    intro p hp
    rw [b6, a5]
    cases h : s.state p with
    | none => simp [hp]
    | some k => simp
  refine ⟨{ b with shown := b.replicas, queued := true, timer := false },
    a1.trans (b1.trans (.step .show trivial (.step .fire trivial ?_))), ⟨?_, b2, rfl, rfl, rfl, fun p hp => ?_⟩, ?_, ?_, hst⟩
  · change Smoothly order (Crew.fire (Crew.show b)) _
    unfold Crew.fire
    by_cases h : b.timer = true
    · rw [if_pos (show (Crew.show b).timer = true from h)]
      exact .refl _
    · have h' : b.timer = false := by cases e : b.timer <;> simp_all
      rw [if_neg (show ¬ (Crew.show b).timer = true from h)]
      rw [show Crew.show b = { b with shown := b.replicas, queued := true, timer := false } by
        unfold Crew.show; rw [← h']]
      exact .refl _
  · exact b3.trans (a2.trans ht)
  · have : p ∈ s.pods := by
      have := b4.trans a3
      change p ∈ b.pods at hp
      rwa [this] at hp
    change b.state p ≠ none
    rw [hst p this]
    exact fun h => (by cases h)
  · exact b4.trans a3
  · exact b5.trans a4

/-! ### Rounds -/

/-- How far a rested cluster is from having the right workers. -/
private def away (s : Crew) : Nat :=
  (if s.replicas < (s.workers .pending).length + (s.workers .running).length then (s.workers .pending).length + 2
   else if s.replicas = (s.workers .pending).length + (s.workers .running).length then 0 else 1) +
  (if s.workers .succeeded = [] ∧ s.workers .failed = [] then 0 else 1)

/-- The workers after a round: those in `slice` are pending and deleted, all that have ended are deleted, and there are
`new` ones. -/
private theorem round_counts {s u v : Crew} {dels new slice : List Str} (hnd : s.pods.Nodup) (o : Out s u dels new)
    (hp : v.pods = u.pods) (hr : v.replicas = u.replicas) (hst : ∀ p ∈ u.pods, v.state p = some ((u.state p).getD .pending))
    (hs : ∀ p ∈ s.pods, s.state p ≠ none) (hsl : slice.Nodup) (hsub : ∀ p ∈ slice, p ∈ s.workers .pending)
    (hd : ∀ p ∈ s.pods, p ∈ dels ↔ p ∈ slice ∨ s.state p = some .succeeded ∨ s.state p = some .failed) :
    (v.workers .pending).length + slice.length = (s.workers .pending).length + new.length ∧
    v.workers .running = s.workers .running ∧ v.workers .succeeded = [] ∧ v.workers .failed = [] ∧ v.replicas = s.replicas := by
  have split : ∀ k, v.workers k = (s.pods.filter (fun p => decide (p ∉ dels))).filter (fun p => decide (s.state p = some k)) ++
      (if k = .pending then new else []) := by
    intro k
    unfold Crew.workers
    rw [hp, o.pods, List.filter_append]
    congr 1
    · refine List.filter_congr (fun p h => ?_)
      obtain ⟨h1, h2⟩ := List.mem_filter.1 h
      have h2' : p ∉ dels := of_decide_eq_true h2
      rw [hst p (by rw [o.pods]; exact List.mem_append_left _ h), o.state p h1 h2']
      cases e : s.state p with
      | none => exact absurd e (hs p h1)
      | some j => rfl
    · have hn : ∀ p ∈ new, v.state p = some .pending := by
        intro p h
        rw [hst p (by rw [o.pods]; exact List.mem_append_right _ h), (o.blank p h).2]
        rfl
      by_cases e : k = .pending
      · rw [if_pos e, List.filter_eq_self]
        intro p h
        rw [hn p h, e]
        exact decide_eq_true rfl
      · rw [if_neg e, List.filter_eq_nil_iff]
        intro p h
        rw [hn p h]
        simp only [Option.some.injEq, decide_eq_true_eq]
        exact fun h' => e h'.symm
  have ended : ∀ k, k = .succeeded ∨ k = .failed → v.workers k = [] := by
    intro k hk
    rw [split k, if_neg (by rcases hk with rfl | rfl <;> decide), List.append_nil, List.filter_eq_nil_iff]
    intro p h h'
    obtain ⟨h1, h2⟩ := List.mem_filter.1 h
    have h3 : s.state p = some k := of_decide_eq_true h'
    refine of_decide_eq_true h2 ((hd p h1).2 (Or.inr ?_))
    rcases hk with rfl | rfl
    · exact Or.inl h3
    · exact Or.inr h3
  refine ⟨?_, ?_, ended _ (Or.inl rfl), ended _ (Or.inr rfl), hr.trans o.replicas⟩
  · have h1 : (s.pods.filter (fun p => decide (p ∉ dels))).filter (fun p => decide (s.state p = some .pending)) =
        (s.workers .pending).filter (fun p => decide (p ∉ slice)) := by
      unfold Crew.workers
      rw [List.filter_filter, List.filter_filter]
      refine List.filter_congr (fun p h => ?_)
      by_cases e : s.state p = some .pending
      · have : p ∈ dels ↔ p ∈ slice := by
          rw [hd p h, e]
          simp
        by_cases f : p ∈ slice
        · simp [e, this.2 f, f]
        · have : p ∉ dels := fun x => f (this.1 x)
          simp [e, this, f]
      · simp [e]
    rw [split .pending, if_pos rfl, List.length_append, h1]
    have := length_without (l := s.workers .pending) (hnd.filter _) hsl hsub
    omega
  · rw [split .running, if_neg (by decide), List.append_nil]
    unfold Crew.workers
    rw [List.filter_filter]
    refine List.filter_congr (fun p h => ?_)
    by_cases e : s.state p = some .running
    · have : p ∉ dels := by
        rw [hd p h, e]
        rintro (x | x | x)
        · have := (mem_workers.1 (hsub p x)).2
          rw [e] at this
          cases this
        · cases x
        · cases x
      simp [e, this]
    · simp [e]

private theorem pySlice_mem {l : List Str} {n : Int} {p : Str} (h : p ∈ pySlice l n) : p ∈ l := by
  unfold pySlice at h
  split at h <;> exact List.mem_of_mem_take h

private theorem pySlice_nodup {l : List Str} (h : l.Nodup) (n : Int) : (pySlice l n).Nodup := by
  unfold pySlice
  split <;> exact h.sublist (List.take_sublist _ _)

private theorem mem_union {l m : List Str} {p : Str} : p ∈ sUnion l m ↔ p ∈ l ∨ p ∈ m := by
  unfold sUnion
  rw [List.mem_append, List.mem_filter]
  constructor
  · rintro (h | h)
    · exact Or.inl h
    · exact Or.inr h.1
  · rintro (h | h)
    · exact Or.inl h
    · by_cases hl : p ∈ l
      · exact Or.inl hl
      · exact Or.inr ⟨h, by simpa using hl⟩

private theorem round (ho : ∀ l, (order l).Perm l) {s : Crew} (h : CrewReach order Acquainted s) (hs : Rested s) :
    ∃ u, Smoothly order s u ∧ u.replicas = s.replicas ∧ (∀ p ∈ u.pods, u.state p ≠ none) ∧
      (u.Quiet ∨ Rested u ∧ away u < away s) := by
  obtain ⟨hnd, hful, hsets, hlen, hsn, hdel⟩ := rested_view ho h hs.task hs.news hs.status
  have htrig : s.info.shouldTrigger 0 = true := by
    unfold Info.shouldTrigger
    rw [hful]
    rfl
  have hdel := hdel s.shown
  rw [hs.shown] at hdel
  -- from a task to the next rested state
  have go : ∀ (s1 : Crew) (t : Task) (slice : List Str), s.step order (.begin 0) = s1 → s1.task = some t → s1.pods = s.pods →
      s1.state = s.state → s1.replicas = s.replicas → t.size = 1 → t.inflight = 0 → t.bad = false →
      t.deleting ++ t.del = slice ++ sUnion (s.info.sets .succeeded) (s.info.sets .failed) → slice.Nodup →
      (∀ p ∈ slice, p ∈ s.workers .pending) →
      ∃ u, Smoothly order s u ∧ Rested u ∧
        (u.workers .pending).length + slice.length = (s.workers .pending).length + t.todo ∧
        u.workers .running = s.workers .running ∧ u.workers .succeeded = [] ∧ u.workers .failed = [] ∧ u.replicas = s.replicas := by
    intro s1 t slice e1 ht hp hst hr h1 h2 h3 hd hsl hsub
    obtain ⟨u, new, p1, p2, p3, p4⟩ := drain (order := order) _ s1 t ht (by omega) (Nat.le_refl _)
    obtain ⟨v, q1, q2, q3, q4, q5⟩ := rest (order := order) u p2
    have o : Out s u (t.deleting ++ t.del) new :=
      ⟨by rw [p3.pods, hp], fun p a b => by rw [p3.state p (by rw [hp]; exact a) b, hst],
        fun p a => by have := p3.blank p a; rw [hp] at this; exact this, p3.replicas.trans hr⟩
    have hc := round_counts (slice := slice) hnd o q3 q4 (by rw [← q3] at *; exact fun p a => q5 p (by rw [q3] at *; exact a)) hs.status hsl hsub (fun p a => by
      rw [hd, List.mem_append, mem_union, hsets, hsets, mem_workers, mem_workers]
      constructor
      · rintro (x | x | x)
        · exact Or.inl x
        · exact Or.inr (Or.inl x.2)
        · exact Or.inr (Or.inr x.2)
      · rintro (x | x | x)
        · exact Or.inl x
        · exact Or.inr (Or.inl ⟨a, x⟩)
        · exact Or.inr (Or.inr ⟨a, x⟩))
    rw [p4, h2, h3] at hc
    simp only [Bool.false_eq_true, if_false, Nat.zero_add] at hc
    exact ⟨v, .step (.begin 0) trivial (by rw [e1]; exact p1.trans q1), q2, hc⟩
  by_cases hpos : 0 < s.info.delta s.replicas
  · -- more workers
    have hplan : s.info.plan order 0 s.shown = .up (s.info.delta s.replicas).toNat
        (sUnion (s.info.sets .succeeded) (s.info.sets .failed)) := by
      unfold Info.plan
      rw [if_pos htrig, hs.shown, if_pos hpos]
    have e : s.step order (.begin 0) = { s with
        queued := false
        info := s.info.expect (s.info.delta s.replicas).toNat (sUnion (s.info.sets .succeeded) (s.info.sets .failed)).length 0
        task := some { size := 1, inflight := 0, todo := (s.info.delta s.replicas).toNat, bad := false,
                       del := sUnion (s.info.sets .succeeded) (s.info.sets .failed), deleting := [] } } := by
      simp only [Crew.step, Crew.begin]
      rw [if_pos ⟨hs.queued, hs.task⟩, hplan]
    obtain ⟨u, a1, a2, a3, a4, a5, a6, a7⟩ := go _ _ [] e rfl rfl rfl rfl rfl rfl rfl rfl List.nodup_nil (fun p h => (by cases h))
    refine ⟨u, a1, a7, a2.status, Or.inr ⟨a2, ?_⟩⟩
    simp only [List.length_nil, Nat.add_zero] at a3
    unfold away
    rw [a4, a5, a6, a7]
    simp only [and_self, if_true, Nat.add_zero]
    rw [hdel] at a3 hpos
    rw [if_neg (by omega), if_pos (by omega), if_neg (by omega), if_neg (by omega)]
    omega
  · have hplan : s.info.plan order 0 s.shown = .down (pySlice (order (s.info.sets .pending)) (s.info.delta s.replicas) ++
        sUnion (s.info.sets .succeeded) (s.info.sets .failed)) := by
      unfold Info.plan
      rw [if_pos htrig, hs.shown, if_neg hpos]
    by_cases hd : pySlice (order (s.info.sets .pending)) (s.info.delta s.replicas) ++
        sUnion (s.info.sets .succeeded) (s.info.sets .failed) = []
    · -- nothing to do
      have e : s.step order (.begin 0) = { s with queued := false } := by
        simp only [Crew.step, Crew.begin]
        rw [if_pos ⟨hs.queued, hs.task⟩, hplan]
        dsimp only
        rw [if_pos hd]
      exact ⟨{ s with queued := false }, .step (.begin 0) trivial (by rw [e]; exact .refl _), rfl, hs.status,
        Or.inl ⟨hs.shown, hs.news, rfl, hs.timer, hs.task⟩⟩
    · -- fewer workers
      have e : s.step order (.begin 0) = { s with
          queued := false
          info := s.info.expect 0 (pySlice (order (s.info.sets .pending)) (s.info.delta s.replicas) ++
            sUnion (s.info.sets .succeeded) (s.info.sets .failed)).length 0
          task := some { size := 1, inflight := 0, todo := 0, bad := false,
                         del := pySlice (order (s.info.sets .pending)) (s.info.delta s.replicas) ++
                           sUnion (s.info.sets .succeeded) (s.info.sets .failed), deleting := [] } } := by
        simp only [Crew.step, Crew.begin]
        rw [if_pos ⟨hs.queued, hs.task⟩, hplan]
        dsimp only
        rw [if_neg hd]
      obtain ⟨u, a1, a2, a3, a4, a5, a6, a7⟩ := go _ _ (pySlice (order (s.info.sets .pending)) (s.info.delta s.replicas)) e
        rfl rfl rfl rfl rfl rfl rfl rfl
        (pySlice_nodup ((ho _).nodup_iff.2 (hsn _)) _)
        (fun p hp => (hsets _ p).1 ((ho _).mem_iff.1 (pySlice_mem hp)))
      refine ⟨u, a1, a7, a2.status, Or.inr ⟨a2, ?_⟩⟩
      replace a3 : (u.workers .pending).length + (pySlice (order (s.info.sets .pending)) (s.info.delta s.replicas)).length =
        (s.workers .pending).length := a3
      have hsl : (pySlice (order (s.info.sets .pending)) (s.info.delta s.replicas)).length =
          ((s.workers .pending).length + s.info.delta s.replicas).toNat - (if s.info.delta s.replicas = 0 then (s.workers .pending).length else 0) := by
        unfold pySlice
        by_cases hz : s.info.delta s.replicas = 0
        · rw [if_pos (by omega), if_pos hz, hz, List.length_take]
          omega
        · rw [if_neg (by omega), if_neg hz, List.length_take, (ho _).length_eq, hlen]
          omega
      have hE : (pySlice (order (s.info.sets .pending)) (s.info.delta s.replicas)).length = 0 →
          ¬ (s.workers .succeeded = [] ∧ s.workers .failed = []) := by
        intro h0 hw
        apply hd
        rw [List.eq_nil_of_length_eq_zero h0]
        have h1 : s.info.sets .succeeded = [] := List.eq_nil_of_length_eq_zero (by rw [hlen, hw.1]; rfl)
        have h2 : s.info.sets .failed = [] := List.eq_nil_of_length_eq_zero (by rw [hlen, hw.2]; rfl)
        rw [h1, h2]
        rfl
      unfold away
      rw [a4, a5, a6, a7]
      simp only [and_self, if_true, Nat.add_zero]
      generalize (pySlice (order (s.info.sets .pending)) (s.info.delta s.replicas)).length = k at *
      by_cases hz : s.info.delta s.replicas = 0
      · rw [if_pos hz] at hsl
        have hk : k = 0 := by omega
        rw [if_neg (hE hk)]
        rw [hdel] at hz hpos
        rw [if_neg (by omega), if_pos (by omega)]
        omega
      · rw [if_neg hz] at hsl
        rw [hdel] at hz hpos hsl
        rw [if_pos (show s.replicas < (s.workers .pending).length + (s.workers .running).length by omega)]
        by_cases hk : k = 0
        · rw [if_neg (hE hk)]
          rw [if_pos (by omega)]
          omega
        · split <;> split <;> omega

private theorem settle (ho : ∀ l, (order l).Perm l) (n : Nat) : ∀ {s : Crew}, CrewReach order Acquainted s → Rested s → away s ≤ n →
    ∃ u, Smoothly order s u ∧ u.replicas = s.replicas ∧ (∀ p ∈ u.pods, u.state p ≠ none) ∧ u.Quiet := by
  induction n with
  | zero =>
    intro s h hs ha
    obtain ⟨u, h1, h2, h3, h4⟩ := round ho h hs
    rcases h4 with h4 | ⟨_, h4⟩
    · exact ⟨u, h1, h2, h3, h4⟩
    · omega
  | succ n ih =>
    intro s h hs ha
    obtain ⟨u, h1, h2, h3, h4⟩ := round ho h hs
    rcases h4 with h4 | ⟨h5, h4⟩
    · exact ⟨u, h1, h2, h3, h4⟩
    · obtain ⟨v, v1, v2, v3, v4⟩ := ih (h1.reach h) h5 (by omega)
      exact ⟨v, h1.trans v1, v2.trans h2, v3, v4⟩

/-! ### Theorem -/

/-- **C132.** From every situation, whatever failed before and whatever is under way, the controller gets, by itself and
if the API server does what it is asked to, to where nothing is left to do, and the cluster has the workers that were
asked for: at least as many pending and running ones, none that has ended, and more only if enough run already. It needs
the containers of pods to get a status, and that others delete only pods that the controller has seen. -/
theorem C132_settles_partial (ho : ∀ l, (order l).Perm l) {s : Crew} (h : CrewReach order Acquainted s) :
    ∃ u, Smoothly order s u ∧ u.Quiet ∧ u.replicas = s.replicas ∧
      s.replicas ≤ (u.workers .pending).length + (u.workers .running).length ∧
      u.workers .succeeded = [] ∧ u.workers .failed = [] ∧
      (s.replicas < (u.workers .pending).length + (u.workers .running).length → s.replicas ≤ (u.workers .running).length) := by
  have idle : ∃ v, Smoothly order s v ∧ v.task = none ∧ v.replicas = s.replicas := by
    cases ht : s.task with
    | none => exact ⟨s, .refl s, ht, rfl⟩
    | some t =>
      obtain ⟨u, new, p1, p2, p3, p4⟩ := drain (order := order) _ s t ht (sized h t ht) (Nat.le_refl _)
      exact ⟨u, p1, p2, p3.replicas⟩
  obtain ⟨v, v1, v2, v3⟩ := idle
  obtain ⟨r, r1, r2, r3, r4, r5⟩ := rest (order := order) v v2
  have hr := (v1.trans r1).reach h
  obtain ⟨u, u1, u2, u3, u4⟩ := settle ho _ hr r2 (Nat.le_refl _)
  have := C132_asked_workers_partial order ho u (u1.reach hr) u4 u3
  rw [u2, r4, v3] at this
  exact ⟨u, (v1.trans r1).trans u1, u4, u2.trans (r4.trans v3), this⟩

/-- The middle of a creation that others interfere with. -/
private def midOps : List CrewOp :=
  [.ask 3, .show, .begin 0, .nextBatch, .createFailed, .nextBatch, .ask 2, .createLost ['a']]

private theorem reach_ops {s : Crew} (ops : List CrewOp) (h : CrewReach id Acquainted s)
    (hp : ∀ op ∈ ops, ∀ s, Acquainted s op) : CrewReach id Acquainted (ops.foldl (Crew.step id) s) := by
  induction ops generalizing s with
  | nil => exact h
  | cons op ops ih =>
    exact ih (.step h (hp op (List.mem_cons_self ..) s)) (fun o ho => hp o (List.mem_cons_of_mem _ ho))

/-- The theorem applies to a state in the middle of a task. -/
example : ∃ s, CrewReach id Acquainted s ∧ s.task.isSome = true ∧ s.replicas = 2 ∧ s.failed = true := by
  refine ⟨midOps.foldl (Crew.step id) (.init 0), reach_ops midOps .init ?_, by decide +kernel, by decide +kernel, by decide +kernel⟩
  intro op h s
  simp only [midOps, List.mem_cons, List.not_mem_nil, or_false] at h
  rcases h with rfl | rfl | rfl | rfl | rfl | rfl | rfl | rfl <;> exact trivial

end Verif.KubeLoop
