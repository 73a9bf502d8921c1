import Verif.Fleet.Beat
import Verif.Fleet.Spec
import Verif.Backend.Props
import Verif.Router.Lemmas2
/-
Where heartbeats and marks come from.
-/
set_option linter.unusedSimpArgs false
set_option linter.unusedVariables false
namespace Verif.Fleet
open Verif.Backend (State Cfg Op Ev SInv Cluster Worker StopRequested)

theorem run_snoc (cfg : Cfg) (env : Env) (items : List Item) (i : Item) :
    run cfg env (items ++ [i]) = (run cfg env items).step cfg env i := by simp [run]

theorem step_gw (cfg : Cfg) (env : Env) (w : World) (i : Item) :
    (w.step cfg env i).gw = w.gw ∨ ∃ e, (w.step cfg env i).gw = w.gw.ev cfg e := by
  cases i with
  | gateway e => simp only [World.step]; split; exact Or.inl rfl; exact Or.inr ⟨e, rfl⟩
  | arrive n t a => simp only [World.step]; split; exact Or.inr ⟨_, rfl⟩; exact Or.inl rfl
  | late n k t => simp only [World.step]; split; exact Or.inl rfl; exact Or.inr ⟨_, rfl⟩
  | make n l => simp only [World.step]; split <;> exact Or.inl rfl
  | lost n => simp only [World.step]; split <;> exact Or.inl rfl
  | gaveUp n => simp only [World.step]; split <;> exact Or.inl rfl
  | retired n ok => simp only [World.step]; split <;> exact Or.inl rfl
  | _ => exact Or.inl rfl

/-- The gateway has a history of its own. -/
theorem gw_run (cfg : Cfg) (env : Env) (items : List Item) : ∃ evs, (run cfg env items).gw = Backend.run cfg evs := by
  induction items using Router.snoc_induction with
  | nil => exact ⟨[], rfl⟩
  | snoc items i ih =>
    obtain ⟨evs, ih⟩ := ih
    rw [run_snoc]
    rcases step_gw cfg env (run cfg env items) i with e | ⟨ev, e⟩
    · exact ⟨evs, e.trans ih⟩
    · exact ⟨evs ++ [ev], by rw [e, ih]; simp [Backend.run]⟩

theorem Announced.mono {cfg : Cfg} {env : Env} {items : List Item} {n x : Nat} (i : Item) :
    Announced cfg env items n x → Announced cfg env (items ++ [i]) n x := by
  rintro ⟨b, a, note, rfl, h⟩
  exact ⟨b, a ++ [i], note, by simp, h⟩

theorem announces_taken {env : Env} {t : Taken} {n k y : Nat} {note : Note}
    (h : Backend.Announces (t.ev n (env.wire n note)).opOf' k y) : k = n ∧ ∃ z ∈ note.msg.closing, env.num z = y := by
  obtain ⟨now, e⟩ := opOf_taken t n (env.wire n note)
  obtain ⟨m, now', e', h⟩ := h
  rw [e] at e'
  simp only [Backend.Op.heartbeat.injEq] at e'
  obtain ⟨rfl, rfl, -⟩ := e'
  exact ⟨rfl, List.mem_map.1 h⟩

/-- The gateway holds that worker `x` of cluster `n` was announced as closing. -/
def Marked (s : State) (n x : Nat) : Prop :=
  ∃ c ∈ s.clusters, c.row.name = n ∧ ∃ w ∈ c.workers, w.row.name = x ∧ w.row.closeExpected = true

theorem ev_mark {cfg : Cfg} {s : State} (hi : SInv cfg s) (e : Ev) {n x : Nat} (h : Marked (s.ev cfg e) n x) :
    Marked s n x ∨ Backend.Announces e.opOf' n x := by
  obtain ⟨d, hd, rfl, w, hw, rfl, hr⟩ := h
  rcases Backend.ev_marked hi e hd hw hr with ⟨c, hc, h1, h2⟩ | h
  · exact Or.inl ⟨c, hc, h1, h2⟩
  · exact Or.inr h

theorem step_marked {cfg : Cfg} {env : Env} {w : World} (hi : SInv cfg w.gw) (i : Item) {n x : Nat}
    (h : Marked (w.step cfg env i).gw n x) : Marked w.gw n x ∨
      ∃ note, ((w.sch n).phase = .sent note ∨ note ∈ (w.sch n).stray) ∧ ∃ z ∈ note.msg.closing, env.num z = x := by
  cases i with
  | gateway e =>
    simp only [World.step] at h
    split at h
    · exact Or.inl h
    · rename_i hb
      rcases ev_mark hi e h with h | ⟨m, now, g, -⟩
      · exact Or.inl h
      · rw [g] at hb; simp [isHeartbeat] at hb
  | arrive m t a =>
    simp only [World.step] at h
    split at h
    · rename_i note hp
      rcases ev_mark hi _ h with h | h
      · exact Or.inl h
      · obtain ⟨rfl, h'⟩ := announces_taken h
        exact Or.inr ⟨note, Or.inl hp, h'⟩
    · exact Or.inl h
  | late m k t =>
    simp only [World.step] at h
    split at h
    · exact Or.inl h
    · rename_i note hp
      rcases ev_mark hi _ h with h | h
      · exact Or.inl h
      · obtain ⟨rfl, h'⟩ := announces_taken h
        exact Or.inr ⟨note, Or.inr (List.mem_of_getElem? hp), h'⟩
  | make m l => simp only [World.step] at h; split at h <;> exact Or.inl h
  | lost m => simp only [World.step] at h; split at h <;> exact Or.inl h
  | gaveUp m => simp only [World.step] at h; split at h <;> exact Or.inl h
  | retired m ok => simp only [World.step] at h; split at h <;> exact Or.inl h
  | _ => exact Or.inl h

theorem step_stray {cfg : Cfg} {env : Env} {w : World} (i : Item) {n : Nat} {note : Note}
    (h : note ∈ ((w.step cfg env i).sch n).stray) : note ∈ (w.sch n).stray ∨ (w.sch n).phase = .sent note := by
  have key : ∀ (w' : World) (m : Nat) (y : Sch), (∀ k, w'.sch k = w.sch k) → note ∈ ((w'.setSch m y).sch n).stray →
      (n = m → note ∈ y.stray → note ∈ (w.sch n).stray ∨ (w.sch n).phase = .sent note) →
      note ∈ (w.sch n).stray ∨ (w.sch n).phase = .sent note := by
    intro w' m y e h g
    rw [setSch_sch] at h
    split at h
    · rename_i e'; exact g e' h
    · rw [e] at h; exact Or.inl h
  cases i with
  | gateway e => simp only [World.step] at h; split at h <;> exact Or.inl h
  | scale m k => exact key _ _ _ (fun _ => rfl) h (fun e g => by subst e; exact Or.inl g)
  | joined m a b => exact key _ _ _ (fun _ => rfl) h (fun e g => by subst e; exact Or.inl g)
  | left m a => exact key _ _ _ (fun _ => rfl) h (fun e g => by subst e; exact Or.inl g)
  | fresh m => exact key _ _ _ (fun _ => rfl) h (fun e g => by subst e; exact Or.inl g)
  | make m l =>
    simp only [World.step] at h
    split at h
    · exact key _ _ _ (fun _ => rfl) h (fun e g => by subst e; exact Or.inl g)
    · exact Or.inl h
  | lost m =>
    simp only [World.step] at h
    split at h
    · exact key _ _ _ (fun _ => rfl) h (fun e g => by subst e; exact Or.inl g)
    · exact Or.inl h
  | retired m ok =>
    simp only [World.step] at h
    split at h
    · exact key _ _ _ (fun _ => rfl) h (fun e g => by subst e; exact Or.inl g)
    · exact Or.inl h
  | arrive m t a =>
    simp only [World.step] at h
    split at h
    · refine key { w with gw := _ } _ _ (fun _ => rfl) h (fun e g => ?_)
      subst e
      unfold Sch.answered at g
      repeat' split at g
      all_goals exact Or.inl g
    · exact Or.inl h
  | late m k t =>
    simp only [World.step] at h
    split at h
    · exact Or.inl h
    · refine key { w with gw := _ } _ _ (fun _ => rfl) h (fun e g => ?_)
      subst e
      exact Or.inl (List.mem_of_mem_eraseIdx g)
  | gaveUp m =>
    simp only [World.step] at h
    split at h
    · rename_i nt hp
      refine key _ _ _ (fun _ => rfl) h (fun e g => ?_)
      subst e
      rcases List.mem_append.1 g with g | g
      · exact Or.inl g
      · rw [List.mem_singleton] at g; subst g; exact Or.inr hp
    · exact Or.inl h

/-- Whatever the gateway holds to be announced was. -/
theorem marked_announced (cfg : Cfg) (env : Env) (items : List Item) (n : Nat) :
    (∀ x, Marked (run cfg env items).gw n x → Announced cfg env items n x) ∧
    (∀ note ∈ ((run cfg env items).sch n).stray, ∀ y ∈ note.msg.closing, Announced cfg env items n (env.num y)) := by
  induction items using Router.snoc_induction with
  | nil =>
    refine ⟨?_, ?_⟩
    · rintro x ⟨c, hc, -⟩; cases hc
    · intro note hn; cases hn
  | snoc items i ih =>
    rw [run_snoc]
    have now : ∀ note, ((run cfg env items).sch n).phase = .sent note → ∀ y ∈ note.msg.closing,
        Announced cfg env (items ++ [i]) n (env.num y) :=
      fun note hp y hy => ⟨items, [i], note, rfl, hp, y, hy, rfl⟩
    refine ⟨fun x hx => ?_, fun note hn y hy => ?_⟩
    · obtain ⟨evs, e⟩ := gw_run cfg env items
      rcases step_marked (by rw [e]; exact Backend.run_inv cfg evs) i hx with h | ⟨note, hp, y, hy, rfl⟩
      · exact (ih.1 x h).mono i
      · rcases hp with hp | hp
        · exact now note hp y hy
        · exact (ih.2 note hp y hy).mono i
    · rcases step_stray i hn with h | h
      · exact (ih.2 note h y hy).mono i
      · exact now note h y hy

/-- The heartbeat was made at some time. -/
def Made (cfg : Cfg) (env : Env) (items : List Item) (n : Nat) (note : Note) : Prop :=
  ∃ before toClose after, items = before ++ .make n toClose :: after ∧
      note = ⟨((run cfg env before).sch n).count, ((run cfg env before).sch n).svc.message ((run cfg env before).sch n).count
        (toClose.filter (fun y => ((run cfg env before).sch n).svc.workers.any (fun e => e.2 == y)))⟩

/-- A heartbeat in flight was made at some time. -/
theorem sent_made (cfg : Cfg) (env : Env) (items : List Item) (n : Nat) {note : Note}
    (h : ((run cfg env items).sch n).phase = .sent note) : Made cfg env items n note := by
  induction items using Router.snoc_induction with
  | nil => cases h
  | snoc items i ih =>
    rw [run_snoc] at h
    have old : ((run cfg env items).sch n).phase = .sent note → Made cfg env (items ++ [i]) n note := fun h => by
      obtain ⟨b, l, a, e1, e2⟩ := ih h
      exact ⟨b, l, a ++ [i], by rw [e1]; simp, e2⟩
    generalize hw : run cfg env items = w at h old
    have key : ∀ (w' : World) (m : Nat) (y : Sch), (∀ k, w'.sch k = w.sch k) → ((w'.setSch m y).sch n).phase = .sent note →
        (n = m → y.phase = .sent note → (w.sch n).phase = .sent note) → (w.sch n).phase = .sent note := by
      intro w' m y e h g
      rw [setSch_sch] at h
      split at h
      · rename_i e'; exact g e' h
      · rw [e] at h; exact h
    cases i with
    | gateway e => simp only [World.step] at h; split at h <;> exact old h
    | scale m k => exact old (key _ _ _ (fun _ => rfl) h (fun e g => by subst e; exact g))
    | joined m a b => exact old (key _ _ _ (fun _ => rfl) h (fun e g => by subst e; exact g))
    | left m a => exact old (key _ _ _ (fun _ => rfl) h (fun e g => by subst e; exact g))
    | fresh m => exact old (key _ _ _ (fun _ => rfl) h (fun e g => by cases g))
    | make m l =>
      simp only [World.step] at h
      split at h
      · rw [setSch_sch] at h
        split at h
        · rename_i e
          subst e
          simp only [Sch.make, Phase.sent.injEq] at h
          exact ⟨items, l, [], rfl, by rw [hw]; exact h.symm⟩
        · exact old h
      · exact old h
    | lost m =>
      simp only [World.step] at h
      split at h
      · exact old (key _ _ _ (fun _ => rfl) h (fun e g => by cases g))
      · exact old h
    | gaveUp m =>
      simp only [World.step] at h
      split at h
      · exact old (key _ _ _ (fun _ => rfl) h (fun e g => by cases g))
      · exact old h
    | retired m ok =>
      simp only [World.step] at h
      split at h
      · exact old (key _ _ _ (fun _ => rfl) h (fun e g => by cases g))
      · exact old h
    | arrive m t a =>
      simp only [World.step] at h
      split at h
      · refine old (key { w with gw := _ } _ _ (fun _ => rfl) h (fun e g => ?_))
        unfold Sch.answered at g
        repeat' split at g
        all_goals cases g
      · exact old h
    | late m k t =>
      simp only [World.step] at h
      split at h
      · exact old h
      · exact old (key { w with gw := _ } _ _ (fun _ => rfl) h (fun e g => by subst e; exact g))

/-- Without a surplus nothing is announced. -/
theorem nothing_announced {cfg : Cfg} {env : Env} {items : List Item} {n x : Nat} (h : NoSurplus cfg env items n) :
    ¬ Announced cfg env items n x := by
  rintro ⟨b, a, note, rfl, hp, y, hy, -⟩
  obtain ⟨b', l, a', rfl, rfl⟩ := sent_made cfg env b n hp
  have := h b' l (a' ++ a) (by simp)
  simp only [Sched.Svc.message] at hy
  rw [if_neg (by omega)] at hy
  simp at hy

end Verif.Fleet
