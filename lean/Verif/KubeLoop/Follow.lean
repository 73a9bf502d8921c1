import Verif.KubeLoop.Leak
/-! Property C130: the recorded phase of a cluster on Kubernetes follows its scheduler. -/
set_option linter.unusedSimpArgs false
set_option linter.unusedVariables false
namespace Verif.KubeLoop
open Verif.Kube

/-! ### Specification -/

/-- The scheduler pod as it is. -/
def Loop.pod (s : Loop) : Option ContainerState := if s.server.exist .pod then some s.podState else none

/-- The versions of the cluster object. -/
def Loop.versions (s : Loop) : List KCluster := s.server.latest :: s.server.older

/-- The scheduler pod is deleted by others only after the controller has seen that it is recorded. -/
def LateVanish (s : Loop) (op : Op) : Prop :=
  op = .vanish .pod → s.cached.status.pod = true ∧ ∀ r, s.run = some r → r.c.status.pod = true

/-! ### The scheduler pod as it is shown -/

/-- How far the scheduler pod has come. -/
inductive Mode where
  | before
  | alive
  | ended
  | after
  deriving DecidableEq

/-- How the pod is shown. -/
def Mode.Shows : Mode → Option ContainerState → Prop
  | .before, x => x = none
  | .alive, x => ∃ y, x = some y ∧ y ≠ .terminated
  | .ended, x => x = some .terminated
  | .after, x => x = none

/-- The pod changes. -/
inductive Turn : Mode → Option ContainerState → Mode → Prop
  | absent : Turn .before none .before
  | begin {x} : x ≠ .terminated → Turn .before (some x) .alive
  | change {x} : x ≠ .terminated → Turn .alive (some x) .alive
  | finish : Turn .alive (some .terminated) .ended
  | dead : Turn .ended (some .terminated) .ended
  | remove : Turn .alive none .after
  | clear : Turn .ended none .after
  | gone : Turn .after none .after

/-- The changes that are still to be shown. -/
inductive Turns : Mode → List (Option ContainerState) → Mode → Prop
  | nil {m} : Turns m [] m
  | cons {m x n l k} : Turn m x n → Turns n l k → Turns m (x :: l) k

theorem Turn.shows {m n : Mode} {x : Option ContainerState} (h : Turn m x n) : n.Shows x := by
  cases h <;> first | rfl | exact ⟨_, rfl, by assumption⟩

theorem Turns.snoc {m n k : Mode} {l : List (Option ContainerState)} {x : Option ContainerState}
    (h : Turns m l n) (t : Turn n x k) : Turns m (l ++ [x]) k := by
  induction h with
  | nil => exact .cons t .nil
  | cons a _ ih => exact .cons a (ih t)

theorem Turns.split {m k : Mode} {l : List (Option ContainerState)} (h : Turns m l k) (n : Nat)
    {x : Option ContainerState} (hx : m.Shows x) :
    ∃ j, Turns m (l.take n) j ∧ Turns j (l.drop n) k ∧ j.Shows ((l.take n).getLast?.getD x) := by
  induction h generalizing n x with
  | @nil m => exact ⟨m, by simpa using Turns.nil, by simpa using Turns.nil, by simpa using hx⟩
  | @cons m y j l k t r ih =>
    cases n with
    | zero => exact ⟨m, .nil, .cons t r, hx⟩
    | succ n =>
      obtain ⟨i, h1, h2, h3⟩ := ih n t.shows
      refine ⟨i, .cons t h1, h2, ?_⟩
      rw [List.take_succ_cons]
      cases hl : l.take n with
      | nil => rw [hl] at h3; simpa using h3
      | cons a b =>
        rw [hl] at h3
        rw [List.getLast?_cons_cons]
        rw [List.getLast?_eq_some_getLast (by simp)] at h3 ⊢
        exact h3

/-- A pod that came later. -/
inductive Later : Mode → Mode → Prop
  | same {m} : Later m m
  | alive : Later .before .alive
  | ended : Later .before .ended
  | after : Later .before .after
  | fail : Later .alive .ended
  | drop : Later .alive .after
  | clear : Later .ended .after

theorem Later.trans {a b c : Mode} (h : Later a b) (g : Later b c) : Later a c := by
  cases h <;> cases g <;> constructor

theorem Turns.later {m k : Mode} {l : List (Option ContainerState)} (h : Turns m l k) : Later m k := by
  induction h with
  | nil => exact .same
  | cons t _ ih => exact Later.trans (by cases t <;> constructor) ih

theorem Later.notBefore {a b : Mode} (h : Later a b) (ha : a ≠ .before) : b ≠ .before := by
  cases h <;> first | exact ha | simp | exact absurd rfl ha

theorem Later.over {a b : Mode} (h : Later a b) (ha : a = .ended ∨ a = .after) : b = .ended ∨ b = .after := by
  cases h with
  | same => exact ha
  | clear => exact Or.inr rfl
  | _ => rcases ha with e | e <;> cases e

/-- The pod is shown in order. -/
structure Track (s : Loop) (m k : Mode) : Prop where
  seen : m.Shows s.podSeen
  news : Turns m s.podNews k
  truth : k.Shows s.pod

theorem track_same {s t : Loop} {m k : Mode} (h : Track s m k) (h1 : t.podSeen = s.podSeen)
    (h2 : t.podNews = s.podNews) (h3 : t.pod = s.pod) : Track t m k :=
  ⟨by rw [h1]; exact h.seen, by rw [h2]; exact h.news, by rw [h3]; exact h.truth⟩

theorem track_see {s : Loop} {m k : Mode} (h : Track s m k) (n : Nat) :
    ∃ j, Track (s.seePod n) j k ∧ Later m j := by
  obtain ⟨j, h1, h2, h3⟩ := h.news.split n h.seen
  exact ⟨j, ⟨h3, h2, h.truth⟩, h1.later⟩

theorem track_restart {s : Loop} {m k : Mode} (h : Track s m k) : Track s.restart k k := by
  obtain ⟨j, h1, h2, h3⟩ := h.news.split s.podNews.length h.seen
  rw [List.drop_length] at h2
  cases h2
  rw [List.take_length] at h3
  exact ⟨h3, .nil, h.truth⟩

theorem pod_none {s : Loop} (h : s.server.exist .pod = false) : s.pod = none := by
  unfold Loop.pod; rw [h]; rfl

theorem pod_some {s : Loop} (h : s.server.exist .pod = true) : s.pod = some s.podState := by
  unfold Loop.pod; rw [h]; rfl

theorem Track.absent {s : Loop} {m k : Mode} (h : Track s m k) (he : s.server.exist .pod = false) :
    k = .before ∨ k = .after := by
  have := h.truth
  rw [pod_none he] at this
  cases k with
  | before => exact Or.inl rfl
  | after => exact Or.inr rfl
  | alive => obtain ⟨y, e, _⟩ := this; cases e
  | ended => cases this

theorem Track.present {s : Loop} {m k : Mode} (h : Track s m k) (he : s.server.exist .pod = true) :
    (k = .alive ∧ s.podState ≠ .terminated) ∨ (k = .ended ∧ s.podState = .terminated) := by
  have := h.truth
  rw [pod_some he] at this
  cases k with
  | before => cases this
  | after => cases this
  | alive => obtain ⟨y, e, n⟩ := this; cases e; exact Or.inl ⟨rfl, n⟩
  | ended => exact Or.inr ⟨rfl, Option.some.inj this⟩

theorem pod_eq {s t : Loop} (h1 : t.server.exist .pod = s.server.exist .pod)
    (h2 : t.podState = s.podState) : t.pod = s.pod := by
  unfold Loop.pod; rw [h1, h2]

theorem setExist_other {e : Res → Bool} {x : Res} {b : Bool} (h : x ≠ .pod) :
    setExist e x b .pod = e .pod := by
  unfold setExist; rw [if_neg (fun e => h e.symm)]

/-- A new pod. -/
theorem track_create {s : Loop} {m k : Mode} (h : Track s m k) (hk : k ≠ .after) (x : Res) :
    ∃ k', Track (s.create x) m k' ∧ (k' = k ∨ (k = .before ∧ k' = .alive)) := by
  unfold Loop.create
  by_cases hx : s.server.exist x = true
  · rw [if_pos hx]; exact ⟨k, h, Or.inl rfl⟩
  · rw [if_neg hx]
    by_cases hp : x = .pod
    · rw [if_pos hp]
      subst hp
      rcases h.absent (by simpa using hx) with rfl | rfl
      · exact ⟨.alive, ⟨h.seen, h.news.snoc (.begin (by decide)), ⟨.waiting, rfl, by decide⟩⟩,
          Or.inr ⟨rfl, rfl⟩⟩
      · exact absurd rfl hk
    · rw [if_neg hp]
      refine ⟨k, track_same h rfl rfl ?_, Or.inl rfl⟩
      exact pod_eq (setExist_other hp) rfl

/-- Other objects. -/
theorem track_create_other {s : Loop} {m k : Mode} (h : Track s m k) {x : Res} (hx : x ≠ .pod) :
    Track (s.create x) m k := by
  unfold Loop.create
  by_cases h1 : s.server.exist x = true
  · rw [if_pos h1]; exact h
  · rw [if_neg h1, if_neg hx]
    refine track_same h rfl rfl ?_
    exact pod_eq (setExist_other hx) rfl

theorem track_delete {s : Loop} {m k : Mode} (h : Track s m k) (x : Res) :
    ∃ k', Track (s.delete x) m k' ∧ Later k k' ∧ (k' ≠ k → x = .pod) := by
  unfold Loop.delete
  by_cases hx : s.server.exist x = true
  · rw [if_pos hx]
    by_cases hp : x = .pod
    · rw [if_pos hp]
      subst hp
      refine ⟨.after, ⟨h.seen, ?_, rfl⟩, ?_, fun _ => rfl⟩
      · show Turns m (s.podNews ++ [some .terminated, none]) .after
        have e : s.podNews ++ [some ContainerState.terminated, none] =
            (s.podNews ++ [some .terminated]) ++ [none] := by simp
        rw [e]
        rcases h.present hx with ⟨rfl, _⟩ | ⟨rfl, _⟩
        · exact (h.news.snoc .finish).snoc .clear
        · exact (h.news.snoc .dead).snoc .clear
      · rcases h.present hx with ⟨rfl, _⟩ | ⟨rfl, _⟩ <;> constructor
    · rw [if_neg hp]
      refine ⟨k, track_same h rfl rfl ?_, .same, fun n => absurd rfl n⟩
      exact pod_eq (setExist_other hp) rfl
  · rw [if_neg hx]; exact ⟨k, h, .same, fun n => absurd rfl n⟩

theorem track_turns {s : Loop} {m k : Mode} (h : Track s m k) (x : ContainerState) :
    ∃ k', Track (s.podTurns x) m k' ∧ Later k k' ∧ (k' ≠ k → (s.podTurns x).lost = true) ∧
      (k' = .after → k = .after) := by
  unfold Loop.podTurns
  split
  · rename_i hx
    rcases h.present hx.1 with ⟨rfl, _⟩ | ⟨_, e⟩
    · by_cases ht : x = .terminated
      · subst ht
        refine ⟨.ended, ⟨h.seen, h.news.snoc .finish, ?_⟩, .fail, fun _ => by simp, fun e => (by cases e)⟩
        unfold Loop.pod; dsimp only; rw [hx.1]; rfl
      · refine ⟨.alive, ⟨h.seen, h.news.snoc (.change ht), ?_⟩, .same, fun n => absurd rfl n, id⟩
        unfold Loop.pod; dsimp only; rw [hx.1]; exact ⟨x, rfl, ht⟩
    · exact absurd e hx.2
  · exact ⟨k, h, .same, fun n => absurd rfl n, id⟩

theorem track_vanish {s : Loop} {m k : Mode} (h : Track s m k) (x : Res) :
    ∃ k', Track (s.vanish x) m k' ∧ Later k k' ∧ (k' ≠ k → x = .pod ∧ (s.vanish x).lost = true) := by
  unfold Loop.vanish
  by_cases hx : s.server.exist x = true
  · rw [if_pos hx]
    by_cases hp : x = .pod
    · subst hp
      refine ⟨.after, ⟨h.seen, ?_, rfl⟩, ?_, fun _ => ⟨rfl, by simp⟩⟩
      · show Turns m (s.podNews ++ [none]) .after
        rcases h.present hx with ⟨rfl, _⟩ | ⟨rfl, _⟩
        · exact h.news.snoc .remove
        · exact h.news.snoc .clear
      · rcases h.present hx with ⟨rfl, _⟩ | ⟨rfl, _⟩ <;> constructor
    · refine ⟨k, track_same h rfl (if_neg hp) ?_, .same, fun n => absurd rfl n⟩
      exact pod_eq (setExist_other hp) rfl
  · rw [if_neg hx]; exact ⟨k, h, .same, fun n => absurd rfl n⟩

theorem version_track {s : Loop} {m k : Mode} (h : Track s m k) (c : KCluster) : Track (s.version c) m k := by
  rcases version_cases s c with ⟨_, e⟩ | ⟨_, e⟩ <;> rw [e]
  · exact h
  · exact track_same h rfl rfl rfl

theorem goOn_track {s : Loop} {m k : Mode} (h : Track s m k) (n : Next) : Track (s.goOn n) m k := by
  cases n <;> exact track_same h rfl rfl rfl

end Verif.KubeLoop
