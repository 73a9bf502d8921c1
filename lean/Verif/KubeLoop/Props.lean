import Verif.KubeLoop.Runs
/-! Property C128: a stop of a cluster on Kubernetes is never forgotten. -/
set_option linter.unusedSimpArgs false
set_option linter.unusedVariables false
namespace Verif.KubeLoop
open Verif.Kube

/-! ### Specification -/

/-- The states of executions whose steps satisfy a condition. -/
inductive Reach (P : Loop → Op → Prop) : Loop → Prop
  | init : Reach P .init
  | step {s op} : Reach P s → P s op → Reach P (s.step op)

/-- Anything may happen. -/
def Any (_ : Loop) (_ : Op) : Prop := True

/-- Nothing is left to do: all changes have been shown, the cluster is not in the queue, no reconciliation
is under way and none is waiting for a backoff. -/
structure Quiet (s : Loop) : Prop where
  cluster : s.lag = 0
  pod : s.podNews = []
  ready : s.readyNews = []
  queue : s.queued = false
  timer : s.timer = false
  run : s.run = none

/-- A phase in which the cluster has ended. -/
def Over (p : Phase) : Prop := p = .stopped ∨ p = .failed

/-! ### Steps -/

theorem final_iff {p : Phase} : final p = true ↔ Over p := by
  unfold final Over; rw [decide_eq_true_eq]

/-- The parts a step of the API server leaves alone. -/
structure Same (s t : Loop) : Prop where
  podSeen : t.podSeen = s.podSeen
  readySeen : t.readySeen = s.readySeen
  queued : t.queued = s.queued
  timer : t.timer = s.timer
  run : t.run = s.run
  stopped : t.stopped = s.stopped

theorem Same.refl (s : Loop) : Same s s := ⟨rfl, rfl, rfl, rfl, rfl, rfl⟩

theorem version_same (s : Loop) (c : KCluster) : Same s (s.version c) := by
  unfold Loop.version; split
  · exact .refl s
  · exact ⟨rfl, rfl, rfl, rfl, rfl, rfl⟩

theorem create_same (s : Loop) (r : Res) : Same s (s.create r) := by
  unfold Loop.create
  by_cases h : s.server.exist r = true
  · rw [if_pos h]; exact .refl s
  · rw [if_neg h]
    by_cases h' : r = .pod
    · rw [if_pos h']; exact ⟨rfl, rfl, rfl, rfl, rfl, rfl⟩
    · rw [if_neg h']; exact ⟨rfl, rfl, rfl, rfl, rfl, rfl⟩

theorem delete_same (s : Loop) (r : Res) : Same s (s.delete r) := by
  unfold Loop.delete
  by_cases h : s.server.exist r = true
  · rw [if_pos h]
    by_cases h' : r = .pod
    · rw [if_pos h']; exact ⟨rfl, rfl, rfl, rfl, rfl, rfl⟩
    · rw [if_neg h']; exact ⟨rfl, rfl, rfl, rfl, rfl, rfl⟩
  · rw [if_neg h]; exact .refl s

/-- The cluster object and how far behind the informer is. -/
structure SameObject (s t : Loop) : Prop where
  latest : t.server.latest = s.server.latest
  older : t.server.older = s.server.older
  lag : t.lag = s.lag

theorem SameObject.refl (s : Loop) : SameObject s s := ⟨rfl, rfl, rfl⟩

theorem SameObject.cached {s t : Loop} (h : SameObject s t) : t.cached = s.cached := by
  unfold Loop.cached; rw [h.latest, h.older, h.lag]

theorem create_object (s : Loop) (r : Res) : SameObject s (s.create r) := by
  unfold Loop.create
  by_cases h : s.server.exist r = true
  · rw [if_pos h]; exact .refl s
  · rw [if_neg h]
    by_cases h' : r = .pod
    · rw [if_pos h']; exact ⟨rfl, rfl, rfl⟩
    · rw [if_neg h']; exact ⟨rfl, rfl, rfl⟩

theorem delete_object (s : Loop) (r : Res) : SameObject s (s.delete r) := by
  unfold Loop.delete
  by_cases h : s.server.exist r = true
  · rw [if_pos h]
    by_cases h' : r = .pod
    · rw [if_pos h']; exact ⟨rfl, rfl, rfl⟩
    · rw [if_neg h']; exact ⟨rfl, rfl, rfl⟩
  · rw [if_neg h]; exact .refl s

/-- What a new version of the object changes. -/
theorem version_cases (s : Loop) (c : KCluster) :
    (c = s.server.latest ∧ s.version c = s) ∨
    (c ≠ s.server.latest ∧ s.version c =
      { s with
        server := { s.server with latest := c, older := s.server.latest :: s.server.older }
        lag := s.lag + 1 }) := by
  unfold Loop.version
  by_cases h : c = s.server.latest
  · exact Or.inl ⟨h, if_pos h⟩
  · exact Or.inr ⟨h, if_neg h⟩

theorem version_cached {s : Loop} (h : s.lag ≤ s.server.older.length) (c : KCluster) :
    (s.version c).cached = s.cached ∧ (s.version c).lag ≤ (s.version c).server.older.length := by
  rcases version_cases s c with ⟨_, e⟩ | ⟨_, e⟩
  · rw [e]; exact ⟨rfl, h⟩
  · rw [e]
    refine ⟨?_, Nat.succ_le_succ h⟩
    unfold Loop.cached
    dsimp only
    rw [List.getElem?_cons_succ, List.getElem?_eq_getElem (by simpa using Nat.lt_succ_of_le h)]
    rfl

/-- The three kinds of calls. -/
theorem effect_cases (s : Loop) (r : Run) :
    (∃ x, r.point.creates = some x ∧ s.effect r = s.create x) ∨
    (∃ x, r.point.deletes = some x ∧ s.effect r = s.delete x) ∨
    (r.point = .patch ∧ s.effect r = s.version { s.server.latest with status := r.st }) ∨
    (r.point = .scale ∧ s.effect r = s) := by
  obtain ⟨c, st, p⟩ := r
  cases p with
  | secret => exact Or.inl ⟨_, rfl, rfl⟩
  | pod => exact Or.inl ⟨_, rfl, rfl⟩
  | service => exact Or.inl ⟨_, rfl, rfl⟩
  | route => exact Or.inl ⟨_, rfl, rfl⟩
  | routeTcp => exact Or.inl ⟨_, rfl, rfl⟩
  | delPod p => exact Or.inr (Or.inl ⟨_, rfl, rfl⟩)
  | delSecret p => exact Or.inr (Or.inl ⟨_, rfl, rfl⟩)
  | scale => exact Or.inr (Or.inr (Or.inr ⟨rfl, rfl⟩))
  | patch => exact Or.inr (Or.inr (Or.inl ⟨rfl, rfl⟩))

theorem effect_same (s : Loop) (r : Run) : Same s (s.effect r) := by
  rcases effect_cases s r with ⟨x, _, e⟩ | ⟨x, _, e⟩ | ⟨_, e⟩ | ⟨_, e⟩ <;> rw [e]
  · exact create_same s x
  · exact delete_same s x
  · exact version_same s _
  · exact .refl s

theorem effect_cached {s : Loop} (h : s.lag ≤ s.server.older.length) (r : Run) :
    (s.effect r).cached = s.cached ∧ (s.effect r).lag ≤ (s.effect r).server.older.length := by
  rcases effect_cases s r with ⟨x, _, e⟩ | ⟨x, _, e⟩ | ⟨_, e⟩ | ⟨_, e⟩ <;> rw [e]
  · have o := create_object s x
    exact ⟨o.cached, by rw [o.lag, o.older]; exact h⟩
  · have o := delete_object s x
    exact ⟨o.cached, by rw [o.lag, o.older]; exact h⟩
  · exact version_cached h _
  · exact ⟨rfl, h⟩

theorem goOn_cached (s : Loop) (n : Next) : (s.goOn n).cached = s.cached := by cases n <;> rfl

theorem cached_zero {s : Loop} (h : s.lag = 0) : s.cached = s.server.latest := by
  unfold Loop.cached; rw [h]; rfl

/-! ### C128 -/

/-- What holds in all executions. -/
structure Inv (s : Loop) : Prop where
  lag : s.lag ≤ s.server.older.length
  ok : ∀ r, s.run = some r → RunOk r
  fresh : ∀ r, s.run = some r → s.queued = false → r.c = s.cached
  idle : s.run = none → s.queued = false → s.timer = false → s.lag = 0 →
    Over s.cached.status.phaseOr ∨ s.cached.active = true

private theorem idle_active {c : KCluster} {pod : Option ContainerState} {ready : Bool}
    (h : Idle c pod ready) : Over c.status.phaseOr ∨ c.active = true := by
  rcases h with h | h | h
  · exact Or.inl (final_iff.1 h)
  · exact Or.inr h.1
  · exact Or.inr h.1

private theorem inv_init : Inv .init := by
  refine ⟨Nat.le_refl _, fun r h => (by cases h), fun r h => (by cases h), fun _ h => (by cases h)⟩

/-- A step that leaves the cluster object alone and does not empty the queue. -/
private theorem inv_same {s t : Loop} (h : Inv s) (o : SameObject s t) (hr : t.run = s.run)
    (hq : t.queued = false → s.queued = false) (ht : t.timer = s.timer) : Inv t := by
  refine ⟨?_, ?_, ?_, ?_⟩
  · rw [o.lag, o.older]; exact h.lag
  · rw [hr]; exact h.ok
  · intro r e q
    rw [o.cached]
    exact h.fresh r (by rw [← hr]; exact e) (hq q)
  · intro e q t' l
    rw [o.cached]
    exact h.idle (by rw [← hr]; exact e) (hq q) (by rw [← ht]; exact t') (by rw [← o.lag]; exact l)

private theorem inv_version {s : Loop} (h : Inv s) (c : KCluster) : Inv (s.version c) := by
  have hs := version_same s c
  have hc := version_cached h.lag c
  refine ⟨hc.2, ?_, ?_, ?_⟩
  · rw [hs.run]; exact h.ok
  · intro r e q
    rw [hc.1]
    exact h.fresh r (by rw [← hs.run]; exact e) (by rw [← hs.queued]; exact q)
  · intro e q t' l
    rw [hc.1]
    refine h.idle (by rw [← hs.run]; exact e) (by rw [← hs.queued]; exact q) (by rw [← hs.timer]; exact t') ?_
    rcases version_cases s c with ⟨_, e⟩ | ⟨_, e⟩
    · rw [e] at l; exact l
    · rw [e] at l; cases l

/-- A state in which the reconciliation goes on as it may. -/
private theorem inv_goOn {s : Loop} {c : KCluster} {Q E S F : Prop} {n : Next} (hl : s.lag ≤ s.server.older.length)
    (hc : s.queued = false → c = s.cached) (hf : Fine c Q E S F n)
    (hQ : Q → s.queued = false → s.timer = false → s.lag = 0 →
      Over s.cached.status.phaseOr ∨ s.cached.active = true) : Inv (s.goOn n) := by
  cases n with
  | call r =>
    refine ⟨hl, ?_, ?_, ?_⟩
    · intro r' e; cases e; exact hf.2.1
    · intro r' e q
      cases e
      exact hf.1.trans (hc q)
    · intro e; cases e
  | done => exact ⟨hl, fun r e => (by cases e), fun r e => (by cases e), fun _ => hQ hf⟩
  | again =>
    refine ⟨hl, fun r e => (by cases e), fun r e => (by cases e), fun _ _ t => ?_⟩
    cases t

private theorem inv_call {s : Loop} (h : Inv s) (out : Outcome) (now : Nat) : Inv (s.call out now) := by
  unfold Loop.call
  cases hr : s.run with
  | none => exact h
  | some r =>
    have ok := h.ok r hr
    have hs := effect_same s r
    have he := effect_cached h.lag r
    cases out with
    | failed =>
      exact inv_goOn (E := True) (Q := False) (S := False) (F := False) (c := s.cached) h.lag (fun _ => rfl)
        trivial (fun e => e.elim)
    | lost =>
      exact inv_goOn (s := s.effect r) (E := True) (Q := False) (S := False) (F := False)
        (c := (s.effect r).cached) he.2 (fun _ => rfl) trivial (fun e => e.elim)
    | ok =>
      refine inv_goOn (s := s.effect r) (c := r.c) he.2 (fun q => ?_) (after_fine ok _ _) (fun hq q t l => ?_)
      · rw [he.1]; exact h.fresh r hr (by rw [← hs.queued]; exact q)
      · rw [he.1]
        have hc := h.fresh r hr (by rw [← hs.queued]; exact q)
        rcases hq with hq | hq
        · have := ok.point
          unfold Run.At at this
          rw [hq] at this
          rw [← hc]; exact Or.inr this.1
        · -- the status that was written differs from the one in the cache, so a change is to be shown
          exfalso
          have w := ok.point
          unfold Run.At at w
          rw [hq] at w
          have e : s.effect r = s.version { s.server.latest with status := r.st } := by
            rcases effect_cases s r with ⟨x, e, _⟩ | ⟨x, e, _⟩ | ⟨_, e⟩ | ⟨e, _⟩
            · rw [hq] at e; cases e
            · rw [hq] at e; cases e
            · exact e
            · rw [hq] at e; cases e
          rw [e] at l
          rcases version_cases s { s.server.latest with status := r.st } with ⟨e1, e2⟩ | ⟨_, e2⟩
          · rw [e2] at l
            have : r.st = s.server.latest.status := by rw [← e1]
            refine w.1 ?_
            rw [this, hc, cached_zero l]
          · rw [e2] at l; cases l

private theorem inv_step {s : Loop} (h : Inv s) (op : Op) : Inv (s.step op) := by
  cases op with
  | stop => exact inv_version h _
  | seeCluster n =>
    refine ⟨Nat.le_trans (Nat.sub_le _ _) h.lag, h.ok, ?_, ?_⟩
    · intro r e q; cases q
    · intro e q; cases q
  | seePod n =>
    refine inv_same h ⟨rfl, rfl, rfl⟩ rfl (fun q => ?_) rfl
    exact (Bool.or_eq_false_iff.1 q).1
  | seeReady n =>
    refine inv_same h ⟨rfl, rfl, rfl⟩ rfl (fun q => ?_) rfl
    exact (Bool.or_eq_false_iff.1 q).1
  | podTurns x =>
    show Inv (s.podTurns x)
    unfold Loop.podTurns
    split
    · exact inv_same h ⟨rfl, rfl, rfl⟩ rfl id rfl
    · exact h
  | endpointsTurn b => exact inv_same h ⟨rfl, rfl, rfl⟩ rfl id rfl
  | vanish r =>
    show Inv (s.vanish r)
    unfold Loop.vanish
    split
    · exact inv_same h ⟨rfl, rfl, rfl⟩ rfl id rfl
    · exact h
  | begin now =>
    show Inv (s.begin now)
    unfold Loop.begin
    split
    · refine inv_goOn (c := s.cached) h.lag (fun _ => rfl) (start_fine _ _) (fun hq _ _ _ => ?_)
      exact idle_active hq
    · exact h
  | call out now => exact inv_call h out now
  | fire =>
    show Inv s.fire
    unfold Loop.fire
    split
    · refine ⟨h.lag, h.ok, ?_, ?_⟩
      · intro r e q; cases q
      · intro e q; cases q
    · exact h
  | restart =>
    refine ⟨Nat.zero_le _, ?_, ?_, ?_⟩
    · intro r e; cases e
    · intro r e; cases e
    · intro e q; cases q

theorem reach_inv {P : Loop → Op → Prop} {s : Loop} (h : Reach P s) : Inv s := by
  induction h with
  | init => exact inv_init
  | step _ _ ih => exact inv_step ih _

/-- C128: whatever requests, changes, failures of calls and crashes of the controller there were and
however they interleaved: when nothing is left to do, a cluster that a user stopped has ended. -/
theorem C128_stop (s : Loop) (h : Reach Any s) (hq : Quiet s) (ha : s.server.latest.active = false) :
    Over s.server.latest.status.phaseOr := by
  have := (reach_inv h).idle hq.run hq.queue hq.timer hq.cluster
  rw [cached_zero hq.cluster] at this
  rcases this with h | h
  · exact h
  · rw [ha] at h; cases h

end Verif.KubeLoop
