import Verif.KubeLoop.Model
/-! What a reconciliation of the Kubernetes controller may be about to do, and why. -/
set_option linter.unusedSimpArgs false
set_option linter.unusedVariables false
namespace Verif.KubeLoop
open Verif.Kube

/-- The given version is a pending, active cluster, and so is the status so far. -/
def Run.Pend (r : Run) : Prop :=
  r.c.active = true ∧ r.c.status.phaseOr = .pending ∧ r.st.phase = some .pending

/-- Why the resources are cleaned up: a user stopped the cluster, or its scheduler ended. -/
def Run.Clean (r : Run) (p : Phase) : Prop :=
  (r.c.active = false ∧ p = .stopped ∧ r.st.pod = r.c.status.pod ∧ r.st.secret = r.c.status.secret) ∨
  (r.c.active = true ∧ p = .failed ∧ r.c.status.pod = true ∧ r.st.pod = true ∧
    r.c.status.phaseOr = .pending ∧ r.st.secret = true) ∨
  (r.c.active = true ∧ p = .failed ∧ r.st.pod = r.c.status.pod ∧ r.st.secret = r.c.status.secret ∧
    r.c.status.phaseOr = .running)

/-- The status that is about to be written. -/
def Run.Written (r : Run) : Prop :=
  r.st ≠ r.c.status ∧
  ((r.c.active = true ∧ r.c.status.phaseOr = .pending ∧ r.st.secret = true ∧ r.st.pod = true ∧
      r.st.phase = some .pending) ∨
   (r.c.active = true ∧ r.c.status.phaseOr = .pending ∧ r.st.secret = true ∧ r.st.pod = true ∧
      r.c.status.pod = true ∧ r.st.phase = some .running) ∨
   (∃ p, r.Clean p ∧ r.st.phase = some p))

/-- What is known at each call. -/
def Run.At (r : Run) : Prop :=
  match r.point with
  | .secret => r.Pend ∧ r.c.status.secret = false ∧ r.st.pod = r.c.status.pod
  | .pod => r.Pend ∧ r.c.status.pod = false ∧ r.st.secret = true
  | .service =>
    r.Pend ∧ r.c.status.service = false ∧ r.st.secret = true ∧ r.st.pod = true ∧ r.c.status.pod = true
  | .route => r.Pend ∧ r.st.secret = true ∧ r.st.pod = true ∧ r.c.status.pod = true
  | .routeTcp => r.Pend ∧ r.st.secret = true ∧ r.st.pod = true ∧ r.c.status.pod = true
  | .delPod p => r.st.pod = true ∧ r.Clean p
  | .delSecret p => r.st.secret = true ∧ r.Clean p
  | .scale =>
    r.c.active = true ∧ r.c.status.phaseOr = .running ∧ r.st = r.c.status ∧ r.c.status.pod = true
  | .patch => r.Written

/-- What is known of every reconciliation under way: the given version is not final, what it notes stays
noted, and what `At` says. -/
structure RunOk (r : Run) : Prop where
  live : final r.c.status.phaseOr = false
  service : r.c.status.service = true → r.st.service = true
  podLater : r.st.pod = true → r.c.status.pod = true ∨ r.point = .patch
  point : r.At

/-- A status that was not to be changed: nothing was to be done for the cluster, given what was shown. -/
def Idle (c : KCluster) (pod : Option ContainerState) (ready : Bool) : Prop :=
  final c.status.phaseOr = true ∨
  (c.active = true ∧ c.status.phaseOr = .pending ∧ c.status.secret = true ∧ c.status.pod = true ∧
    pod ≠ some .terminated ∧ (pod = some .running → ready = false)) ∨
  (c.active = true ∧ c.status.phaseOr = .running ∧ c.status.pod = true ∧ pod ≠ some .terminated ∧
    pod ≠ none)

/-- The reconciliation goes on because the scheduler was seen running. -/
def Run.Serving (r : Run) : Prop :=
  r.point = .service ∨ r.point = .route ∨ r.point = .routeTcp ∨
  (r.point = .patch ∧ r.st.phase = some .running)

/-- The reconciliation goes on because the scheduler was found to have ended. -/
def Run.Failing (r : Run) : Prop :=
  r.point = .delPod .failed ∨ r.point = .delSecret .failed ∨
  (r.point = .patch ∧ r.st.phase = some .failed)

/-- How a reconciliation may go on: properly, or to an end if `Q`, or to an exception if `E`; `S` and `F`
are what makes it serve or fail. -/
def Fine (c : KCluster) (Q E S F : Prop) : Next → Prop
  | .call r => r.c = c ∧ RunOk r ∧ (r.Serving → S) ∧ (r.Failing → F)
  | .done => Q
  | .again => E

theorem Fine.mono {c : KCluster} {Q E S F Q' E' S' F' : Prop} {n : Next} (h : Fine c Q E S F n)
    (q : Q → Q') (e : E → E') (s : S → S') (f : F → F') : Fine c Q' E' S' F' n := by
  cases n with
  | call r => exact ⟨h.1, h.2.1, fun x => s (h.2.2.1 x), fun x => f (h.2.2.2 x)⟩
  | done => exact q h
  | again => exact e h

theorem conclude_fine {c : KCluster} {st : KStatus} (hl : final c.status.phaseOr = false)
    (hs : c.status.service = true → st.service = true)
    (hw : st ≠ c.status → Run.Written ⟨c, st, .patch⟩) :
    Fine c (st = c.status) False (st.phase = some .running) (st.phase = some .failed)
      (conclude c st) := by
  unfold conclude
  by_cases h : st = c.status
  · rw [if_pos h]; exact h
  · rw [if_neg h]
    refine ⟨rfl, ⟨hl, hs, fun _ => Or.inr rfl, hw h⟩, fun x => ?_, fun x => ?_⟩
    · simpa [Run.Serving] using x
    · simpa [Run.Failing] using x

theorem ended_changed {c : KCluster} {st : KStatus} {p : Phase} {now : Nat}
    (hl : final c.status.phaseOr = false) (hp : final p = true) : st.ended p now ≠ c.status := by
  intro h
  rw [← h] at hl
  have : (st.ended p now).phaseOr = p := rfl
  rw [this, hp] at hl
  cases hl

theorem clean_final {r : Run} {p : Phase} (h : r.Clean p) : final p = true := by
  rcases h with ⟨_, rfl, _⟩ | ⟨_, rfl, _⟩ | ⟨_, rfl, _⟩ <;> decide

theorem ended_fine {c : KCluster} {st : KStatus} {p : Phase} {now : Nat} {x : Point}
    (hl : final c.status.phaseOr = false) (hs : c.status.service = true → st.service = true)
    (hc : Run.Clean ⟨c, st, x⟩ p) :
    Fine c False False False (p = .failed) (conclude c (st.ended p now)) := by
  have hp := clean_final hc
  refine (conclude_fine (st := st.ended p now) hl hs ?_).mono (fun h => ended_changed hl hp h) id
    (fun h => ?_) (fun h => ?_)
  · intro h
    refine ⟨h, Or.inr (Or.inr ⟨p, ?_, rfl⟩)⟩
    rcases hc with hc | hc | hc
    · exact Or.inl hc
    · exact Or.inr (Or.inl hc)
    · exact Or.inr (Or.inr hc)
  · cases (Option.some.inj h : p = .running); cases hp
  · exact Option.some.inj h

theorem cleanSecret_fine {c : KCluster} {st : KStatus} {p : Phase} {seen : Seen} {x : Point}
    (hl : final c.status.phaseOr = false) (hs : c.status.service = true → st.service = true)
    (hq : st.pod = true → c.status.pod = true)
    (hc : Run.Clean ⟨c, st, x⟩ p) :
    Fine c False False False (p = .failed) (cleanSecret c st p seen) := by
  unfold cleanSecret
  cases h : st.secret with
  | true =>
    refine ⟨rfl, ⟨hl, hs, fun y => Or.inl (hq y), h, ?_⟩, fun y => ?_, fun y => ?_⟩
    · rcases hc with hc | hc | hc
      · exact Or.inl hc
      · exact Or.inr (Or.inl hc)
      · exact Or.inr (Or.inr hc)
    · simp [Run.Serving] at y
    · simpa [Run.Failing] using y
  | false =>
    exact ended_fine hl hs hc

theorem clean_fine {c : KCluster} {st : KStatus} {p : Phase} {seen : Seen} {x : Point}
    (hl : final c.status.phaseOr = false) (hs : c.status.service = true → st.service = true)
    (hq : st.pod = true → c.status.pod = true)
    (hc : Run.Clean ⟨c, st, x⟩ p) :
    Fine c False False False (p = .failed) (clean c st p seen) := by
  unfold clean
  cases h : st.pod with
  | true =>
    refine ⟨rfl, ⟨hl, hs, fun y => Or.inl (hq y), h, ?_⟩, fun y => ?_, fun y => ?_⟩
    · rcases hc with hc | hc | hc
      · exact Or.inl hc
      · exact Or.inr (Or.inl hc)
      · exact Or.inr (Or.inr hc)
    · simp [Run.Serving] at y
    · simpa [Run.Failing] using y
  | false => exact cleanSecret_fine hl hs hq hc

/-- A pending cluster with a secret and a recorded scheduler pod. -/
structure Going (c : KCluster) (st : KStatus) : Prop where
  active : c.active = true
  pending : c.status.phaseOr = .pending
  phase : st.phase = some .pending
  service : c.status.service = true → st.service = true
  secret : st.secret = true
  pod : st.pod = true
  recorded : c.status.pod = true

theorem Going.live {c : KCluster} {st : KStatus} (h : Going c st) : final c.status.phaseOr = false := by
  rw [h.pending]; decide

theorem lookTcp_fine {c : KCluster} {st : KStatus} (h : Going c st) :
    Fine c False False True False (lookTcp c st) := by
  unfold lookTcp
  by_cases hr : st.routeTcp = true
  · rw [if_pos hr]
    refine (conclude_fine (st := { st with phase := some .running }) h.live h.service ?_).mono (fun e => ?_) id (fun _ => trivial) (fun e => ?_)
    · exact fun n => ⟨n, Or.inr (Or.inl ⟨h.active, h.pending, h.secret, h.pod, h.recorded, rfl⟩)⟩
    · have := h.pending
      rw [← e] at this; cases this
    · cases e
  · rw [if_neg hr]
    refine ⟨rfl, ⟨h.live, h.service, fun _ => Or.inl h.recorded, ?_⟩, fun _ => trivial, fun y => ?_⟩
    · exact ⟨⟨h.active, h.pending, h.phase⟩, h.secret, h.pod, h.recorded⟩
    · simp [Run.Failing] at y

theorem lookRoute_fine {c : KCluster} {st : KStatus} (h : Going c st) :
    Fine c False False True False (lookRoute c st) := by
  unfold lookRoute
  cases hr : st.route with
  | true => exact lookTcp_fine h
  | false =>
    refine ⟨rfl, ⟨h.live, h.service, fun _ => Or.inl h.recorded, ?_⟩, fun _ => trivial, fun y => ?_⟩
    · exact ⟨⟨h.active, h.pending, h.phase⟩, h.secret, h.pod, h.recorded⟩
    · simp [Run.Failing] at y

theorem going_conclude {c : KCluster} {st : KStatus} (h : Going c st) :
    Fine c (st = c.status) False False False (conclude c st) := by
  refine (conclude_fine h.live h.service ?_).mono id id (fun e => ?_) (fun e => ?_)
  · exact fun n => ⟨n, Or.inl ⟨h.active, h.pending, h.secret, h.pod, h.phase⟩⟩
  · rw [h.phase] at e; cases e
  · rw [h.phase] at e; cases e

theorem lookEndpoints_fine {c : KCluster} {st : KStatus} {seen : Seen} (h : Going c st) :
    Fine c (st = c.status ∧ seen.ready = false) False True False (lookEndpoints c st seen) := by
  unfold lookEndpoints
  cases hr : seen.ready with
  | true => exact (lookRoute_fine h).mono (fun e => e.elim) id id id
  | false => exact (going_conclude h).mono (fun e => ⟨e, rfl⟩) id (fun _ => trivial) id

theorem lookService_fine {c : KCluster} {st : KStatus} {seen : Seen} (h : Going c st) :
    Fine c (st = c.status ∧ seen.ready = false) False True False (lookService c st seen) := by
  unfold lookService
  cases hr : st.service with
  | true => exact lookEndpoints_fine h
  | false =>
    refine ⟨rfl, ⟨h.live, h.service, fun _ => Or.inl h.recorded, ?_⟩, fun _ => trivial, fun y => ?_⟩
    · refine ⟨⟨h.active, h.pending, h.phase⟩, ?_, h.secret, h.pod, h.recorded⟩
      cases hc : c.status.service with
      | false => rfl
      | true => rw [h.service hc] at hr; cases hr
    · simp [Run.Failing] at y

theorem withPod_fine {c : KCluster} {st : KStatus} {pod : Option ContainerState} {seen : Seen}
    (h : Going c st) :
    Fine c (st = c.status ∧ pod ≠ some .terminated ∧ (pod = some .running → seen.ready = false)) False
      (pod = some .running) (pod = some .terminated) (withPod c st pod seen) := by
  unfold withPod
  split
  · exact (lookService_fine h).mono (fun e => ⟨e.1, by simp, fun _ => e.2⟩) id (fun _ => rfl) (fun e => e.elim)
  · refine (clean_fine (x := .patch) h.live h.service (fun _ => h.recorded) ?_).mono (fun e => e.elim) id
      (fun e => e.elim) (fun _ => rfl)
    exact Or.inr (Or.inl ⟨h.active, rfl, h.recorded, h.pod, h.pending, h.secret⟩)
  · rename_i h1 h2
    exact (going_conclude h).mono (fun e => ⟨e, h2, fun p => absurd p h1⟩) id (fun e => e.elim)
      (fun e => e.elim)

/-- The call that creates the scheduler pod succeeded. -/
theorem newPod_fine {c : KCluster} {st : KStatus} {new : Bool} {seen : Seen}
    (ha : c.active = true) (hp : c.status.phaseOr = .pending) (hph : st.phase = some .pending)
    (hs : c.status.service = true → st.service = true) (hsec : st.secret = true)
    (hc : c.status.pod = false) :
    Fine c False False False False
      (withPod c (st.note .pod) (if new then some .waiting else none) seen) := by
  have e : withPod c (st.note .pod) (if new then some .waiting else none) seen =
      conclude c (st.note .pod) := by cases new <;> rfl
  rw [e]
  refine (conclude_fine (st := st.note .pod) (by rw [hp]; decide) hs ?_).mono (fun e => ?_) id (fun e => ?_) (fun e => ?_)
  · exact fun n => ⟨n, Or.inl ⟨ha, hp, hsec, rfl, hph⟩⟩
  · rw [← e] at hc; cases hc
  · have e' : st.phase = some .running := e
    rw [hph] at e'; cases e'
  · have e' : st.phase = some .failed := e
    rw [hph] at e'; cases e'

theorem lookPod_fine {c : KCluster} {st : KStatus} {seen : Seen}
    (ha : c.active = true) (hp : c.status.phaseOr = .pending) (hph : st.phase = some .pending)
    (hs : c.status.service = true → st.service = true) (hsec : st.secret = true)
    (hc : st.pod = c.status.pod) :
    Fine c (st = c.status ∧ st.pod = true ∧ seen.pod ≠ some .terminated ∧
        (seen.pod = some .running → seen.ready = false)) False
      (seen.pod = some .running) (seen.pod = some .terminated) (lookPod c st seen) := by
  unfold lookPod
  cases hq : st.pod with
  | true =>
    exact (withPod_fine ⟨ha, hp, hph, hs, hsec, hq, by rw [← hc]; exact hq⟩).mono
      (fun e => ⟨e.1, rfl, e.2⟩) id id id
  | false =>
    refine ⟨rfl, ⟨by rw [hp]; decide, hs, fun y => ?_, ⟨ha, hp, hph⟩, by rw [← hc]; exact hq, hsec⟩,
      fun y => ?_, fun y => ?_⟩
    · rw [hq] at y; cases y
    · simp [Run.Serving] at y
    · simp [Run.Failing] at y

/-- The start of a reconciliation. -/
theorem start_fine (c : KCluster) (seen : Seen) :
    Fine c (Idle c seen.pod seen.ready) (c.status.phaseOr = .other) (seen.pod = some .running)
      (seen.pod = some .terminated ∨ (c.status.phaseOr = .running ∧ seen.pod = none) ∨
        (c.status.phaseOr = .running ∧ c.status.pod = false))
      (start c seen) := by
  have stop : ∀ p, c.status.phaseOr = p → final p = false → c.active = false →
      Fine c (Idle c seen.pod seen.ready) (p = .other) (seen.pod = some .running)
        (seen.pod = some .terminated ∨ (p = .running ∧ seen.pod = none) ∨
          (p = .running ∧ c.status.pod = false)) (clean c c.status .stopped seen) := by
    intro p hp hf ha
    refine (clean_fine (x := .patch) (by rw [hp]; exact hf) id id ?_).mono (fun e => e.elim)
      (fun e => e.elim) (fun e => e.elim) (fun e => by cases e)
    exact Or.inl ⟨ha, rfl, rfl, rfl⟩
  unfold start
  cases hp : c.status.phaseOr with
  | stopped => exact Or.inl (by rw [hp]; decide)
  | failed => exact Or.inl (by rw [hp]; decide)
  | other =>
    cases ha : c.active with
    | true => rfl
    | false => exact stop _ hp (by decide) ha
  | pending =>
    cases ha : c.active with
    | false => exact stop _ hp (by decide) ha
    | true =>
      rw [if_pos rfl]
      unfold startPending
      dsimp only
      by_cases hs : c.status.secret = true
      · rw [if_pos hs]
        refine (lookPod_fine (st := { c.status with phase := some c.status.phaseOr }) ha hp
          (by rw [hp]) id hs rfl).mono (fun e => ?_) (fun e => e.elim) id Or.inl
        refine Or.inr (Or.inl ⟨ha, hp, hs, e.2.1, e.2.2⟩)
      · rw [if_neg hs]
        refine ⟨rfl, ⟨by rw [hp]; decide, id, fun y => Or.inl y, ⟨ha, hp, by rw [hp]⟩,
          by simpa using hs, rfl⟩, fun y => ?_, fun y => ?_⟩
        · simp [Run.Serving] at y
        · simp [Run.Failing] at y
  | running =>
    cases ha : c.active with
    | false => exact stop _ hp (by decide) ha
    | true =>
      rw [if_pos rfl]
      have fails : Fine c False False False True (clean c c.status .failed seen) :=
        (clean_fine (x := .patch) (by rw [hp]; decide) id id
          (Or.inr (Or.inr ⟨ha, rfl, rfl, rfl, hp⟩))).mono id id id (fun _ => trivial)
      unfold startRunning
      cases hq : c.status.pod with
      | false =>
        exact fails.mono (fun e => e.elim) (fun e => e.elim) (fun e => e.elim)
          (fun _ => Or.inr (Or.inr ⟨rfl, rfl⟩))
      | true =>
        rw [if_pos rfl]
        cases hx : seen.pod with
        | none =>
          exact fails.mono (fun e => e.elim) (fun e => e.elim) (fun e => e.elim)
            (fun _ => Or.inr (Or.inl ⟨rfl, rfl⟩))
        | some x =>
          have idle : x ≠ .terminated → Idle c (some x) seen.ready := fun n =>
            Or.inr (Or.inr ⟨ha, hp, hq, fun e => n (Option.some.inj e), fun e => by cases e⟩)
          cases x with
          | terminated =>
            exact fails.mono (fun e => e.elim) (fun e => e.elim) (fun e => e.elim)
              (fun _ => Or.inl rfl)
          | running =>
            refine ⟨rfl, ⟨by rw [hp]; decide, id, fun y => Or.inl y, ha, hp, rfl, hq⟩, fun y => ?_, fun y => ?_⟩
            · rfl
            · simp [Run.Failing] at y
          | waiting =>
            show Fine _ _ _ _ _ (conclude c c.status)
            unfold conclude
            rw [if_pos rfl]
            exact idle (by decide)
          | unknown =>
            show Fine _ _ _ _ _ (conclude c c.status)
            unfold conclude
            rw [if_pos rfl]
            exact idle (by decide)

/-- A reconciliation goes on after its call succeeded. -/
theorem after_fine {r : Run} (h : RunOk r) (new : Bool) (seen : Seen) :
    Fine r.c (r.point = .scale ∨ r.point = .patch) False (r.Serving ∨ seen.pod = some .running)
      (r.Failing ∨ seen.pod = some .terminated) (r.after new seen) := by
  obtain ⟨c, st, point⟩ := r
  obtain ⟨hl, hs, hq, hat⟩ := h
  dsimp only at hl hs hq
  unfold Run.after
  cases point with
  | secret =>
    obtain ⟨⟨ha, hp, hph⟩, hc, hpod⟩ := hat
    refine (lookPod_fine (st := st.note .secret) ha hp hph hs rfl hpod).mono (fun x => ?_) id Or.inr Or.inr
    have := x.1
    dsimp only at hc
    rw [← this] at hc; cases hc
  | pod =>
    obtain ⟨⟨ha, hp, hph⟩, hc, hsec⟩ := hat
    exact (newPod_fine ha hp hph hs hsec hc).mono (fun e => e.elim) id (fun e => e.elim) (fun e => e.elim)
  | service =>
    obtain ⟨⟨ha, hp, hph⟩, hc, hsec, hpod, hrec⟩ := hat
    refine (lookEndpoints_fine (st := st.note .service) ⟨ha, hp, hph, fun _ => rfl, hsec, hpod, hrec⟩).mono
      (fun e => ?_) id (fun _ => Or.inl (Or.inl rfl)) (fun e => e.elim)
    have := e.1
    dsimp only at hc
    rw [← this] at hc; cases hc
  | route =>
    obtain ⟨⟨ha, hp, hph⟩, hsec, hpod, hrec⟩ := hat
    exact (lookTcp_fine (st := st.note .route) ⟨ha, hp, hph, hs, hsec, hpod, hrec⟩).mono
      (fun e => e.elim) id (fun _ => Or.inl (Or.inr (Or.inl rfl))) (fun e => e.elim)
  | routeTcp =>
    obtain ⟨⟨ha, hp, hph⟩, hsec, hpod, hrec⟩ := hat
    refine (conclude_fine (st := { st.note .routeTcp with phase := some .running }) hl hs ?_).mono
      (fun e => ?_) id (fun _ => Or.inl (Or.inr (Or.inr (Or.inl rfl)))) (fun e => ?_)
    · exact fun n => ⟨n, Or.inr (Or.inl ⟨ha, hp, hsec, hpod, hrec, rfl⟩)⟩
    · dsimp only at hp
      rw [← e] at hp; cases hp
    · cases e
  | delPod p =>
    obtain ⟨hpod, hc⟩ := hat
    refine (cleanSecret_fine (x := .delPod p) hl hs (fun y => (hq y).resolve_right (by simp)) hc).mono
      (fun e => e.elim) id (fun e => e.elim) (fun e => ?_)
    subst e; exact Or.inl (Or.inl rfl)
  | delSecret p =>
    obtain ⟨hsec, hc⟩ := hat
    refine (ended_fine hl hs hc).mono
      (fun e => e.elim) id (fun e => e.elim) (fun e => ?_)
    subst e; exact Or.inl (Or.inr (Or.inl rfl))
  | scale =>
    obtain ⟨ha, hp, he, hrec⟩ := hat
    dsimp only at he ⊢
    unfold conclude
    rw [if_pos he]
    exact Or.inl rfl
  | patch => exact Or.inr rfl

end Verif.KubeLoop
