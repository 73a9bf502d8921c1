import Verif.KubeLoop.Wake
/-! Property C131: the work of the Kubernetes controller for a cluster comes to an end. -/
set_option linter.unusedSimpArgs false
set_option linter.unusedVariables false
namespace Verif.KubeLoop
open Verif.Kube

/-! ### Specification -/

/-- A step of the controller that does something: a change is shown, a waiting cluster is taken from the
queue, a call is made and succeeds, a backoff ends. -/
def Works (s : Loop) : Op → Prop
  | .seeCluster n => 0 < n ∧ 0 < s.lag
  | .seePod n => 0 < n ∧ s.podNews ≠ []
  | .seeReady n => 0 < n ∧ s.readyNews ≠ []
  | .begin _ => s.queued = true ∧ s.run = none
  | .call out _ => out = .ok ∧ s.run ≠ none
  | .fire => s.timer = true
  | _ => False

/-- Steps of the controller alone, each of which does something. -/
def Working (s : Loop) : List Op → Prop
  | [] => True
  | op :: ops => Works s op ∧ Working (s.step op) ops

/-! ### How far a cluster has come -/

private def bit (b : Bool) : Nat := if b then 0 else 1

/-- How many changes of the status are to come at most. -/
private def rank (st : KStatus) : Nat :=
  match st.phaseOr with
  | .stopped => 0
  | .failed => 0
  | .running => 1
  | .other => 1
  | .pending =>
    2 + bit st.secret + bit st.pod + bit st.service + bit st.route + bit st.routeTcp + bit st.phase.isSome

private theorem bit_le (b : Bool) : bit b ≤ 1 := by cases b <;> decide

private theorem rank_le (st : KStatus) : rank st ≤ 8 := by
  have := bit_le st.secret
  have := bit_le st.pod
  have := bit_le st.service
  have := bit_le st.route
  have := bit_le st.routeTcp
  have := bit_le st.phase.isSome
  unfold rank
  split <;> omega

/-- What is noted stays so. -/
private structure Ext (c : KCluster) (st : KStatus) : Prop where
  noted : ∀ x, c.status.noted x = true → st.noted x = true
  completion : st.phase = some .pending → st.completion = c.status.completion

private theorem bit_mono {a b : Bool} (h : a = true → b = true) : bit b ≤ bit a ∧ (bit b = bit a → b = a) := by
  cases a <;> cases b <;> simp_all [bit]

private theorem rank_lt {r : Run} (h : RunOk r) (he : Ext r.c r.st) (hp : r.point = .patch) :
    rank r.st < rank r.c.status := by
  have hl := h.live
  have w := h.point
  unfold Run.At at w
  rw [hp] at w
  obtain ⟨hne, w⟩ := w
  have pos : 1 ≤ rank r.c.status := by
    unfold rank
    cases e : r.c.status.phaseOr with
    | stopped => rw [e] at hl; cases hl
    | failed => rw [e] at hl; cases hl
    | pending => dsimp only; omega
    | _ => exact Nat.le_refl 1
  have phase : ∀ p, r.st.phase = some p → r.st.phaseOr = p := by
    intro p e; unfold KStatus.phaseOr; rw [e]; rfl
  rcases w with w | w | ⟨p, w, e⟩
  · have e1 := phase _ w.2.2.2.2
    have e2 := w.2.1
    have hs := w.2.2.2.2
    have hc := he.completion hs
    have hn := he.noted
    have n1 := bit_mono (hn .secret)
    have n2 := bit_mono (hn .pod)
    have n3 := bit_mono (hn .service)
    have n4 := bit_mono (hn .route)
    have n5 := bit_mono (hn .routeTcp)
    have n6 : bit r.st.phase.isSome = 0 := by rw [hs]; rfl
    have n7 : bit r.c.status.phase.isSome = 0 → r.c.status.phase = some .pending := by
      intro e
      unfold KStatus.phaseOr at e2
      cases hq : r.c.status.phase with
      | none => rw [hq] at e; cases e
      | some x => rw [hq] at e2; exact congrArg some e2
    simp only [KStatus.noted] at n1 n2 n3 n4 n5
    have r1 : rank r.st = 2 + bit r.st.secret + bit r.st.pod + bit r.st.service + bit r.st.route +
        bit r.st.routeTcp + bit r.st.phase.isSome := by unfold rank; rw [e1]
    have r2 : rank r.c.status = 2 + bit r.c.status.secret + bit r.c.status.pod + bit r.c.status.service +
        bit r.c.status.route + bit r.c.status.routeTcp + bit r.c.status.phase.isSome := by unfold rank; rw [e2]
    rcases Nat.lt_or_ge (rank r.st) (rank r.c.status) with hlt | hge
    · exact hlt
    · exfalso
      refine hne ?_
      have q1 := n1.2 (by omega)
      have q2 := n2.2 (by omega)
      have q3 := n3.2 (by omega)
      have q4 := n4.2 (by omega)
      have q5 := n5.2 (by omega)
      have q6 := n7 (by omega)
      revert q1 q2 q3 q4 q5 q6 hs hc
      generalize r.st = a
      generalize r.c.status = b
      intro hs hc q1 q2 q3 q4 q5 q6
      cases a; cases b
      simp_all
  · have e1 := phase _ w.2.2.2.2.2
    have : rank r.st = 1 := by unfold rank; rw [e1]
    have : 2 ≤ rank r.c.status := by
      unfold rank; rw [w.2.1]; dsimp only; omega
    omega
  · have e1 := phase _ e
    have hf := clean_final w
    have : rank r.st = 0 := by
      unfold rank; rw [e1]
      cases p <;> first | rfl | cases hf
    omega

/-- How a reconciliation goes on: noting more, with fewer than `n` calls to come. -/
private def Down (c : KCluster) (n : Nat) (f : Point → Nat) : Next → Prop
  | .call r => r.c = c ∧ Ext c r.st ∧ f r.point < n
  | _ => True

/-- How many calls are to come at most. -/
private def ahead : Point → Nat
  | .secret => 10
  | .pod => 9
  | .service => 8
  | .route => 7
  | .routeTcp => 6
  | .delPod _ => 5
  | .delSecret _ => 4
  | .scale => 3
  | .patch => 2

private theorem Down.mono {c : KCluster} {n m : Nat} {x : Next} (h : Down c n ahead x) (hl : n ≤ m) :
    Down c m ahead x := by
  cases x with
  | call r => exact ⟨h.1, h.2.1, Nat.lt_of_lt_of_le h.2.2 hl⟩
  | _ => trivial

private theorem Ext.note {c : KCluster} {st : KStatus} (h : Ext c st) (x : Res) : Ext c (st.note x) := by
  constructor
  · intro y hy
    have := h.noted y hy
    cases x <;> cases y <;> first | rfl | exact this
  · cases x <;> exact h.completion

private theorem Ext.phase {c : KCluster} {st : KStatus} (h : Ext c st) {p : Phase} (hp : p ≠ .pending) :
    Ext c { st with phase := some p } :=
  ⟨fun x hx => (by have := h.noted x hx; cases x <;> exact this), fun e => absurd (Option.some.inj e) hp⟩

private theorem Ext.ended {c : KCluster} {st : KStatus} (h : Ext c st) {p : Phase} (hp : p ≠ .pending) (now : Nat) :
    Ext c (st.ended p now) :=
  ⟨fun x hx => (by have := h.noted x hx; cases x <;> exact this), fun e => absurd (Option.some.inj e) hp⟩

private theorem ext_self (c : KCluster) : Ext c c.status := ⟨fun _ h => h, fun _ => rfl⟩

private theorem conclude_down {c : KCluster} {st : KStatus} (h : Ext c st) : Down c 3 ahead (conclude c st) := by
  unfold conclude; split
  · trivial
  · exact ⟨rfl, h, by simp [ahead]⟩

private theorem cleanSecret_down {c : KCluster} {st : KStatus} {p : Phase} {seen : Seen} (h : Ext c st)
    (hp : p ≠ .pending) : Down c 5 ahead (cleanSecret c st p seen) := by
  unfold cleanSecret; split
  · exact ⟨rfl, h, by simp [ahead]⟩
  · exact (conclude_down (h.ended hp _)).mono (by decide)

private theorem clean_down {c : KCluster} {st : KStatus} {p : Phase} {seen : Seen} (h : Ext c st)
    (hp : p ≠ .pending) : Down c 6 ahead (clean c st p seen) := by
  unfold clean; split
  · exact ⟨rfl, h, by simp [ahead]⟩
  · exact (cleanSecret_down h hp).mono (by decide)

private theorem lookTcp_down {c : KCluster} {st : KStatus} (h : Ext c st) : Down c 7 ahead (lookTcp c st) := by
  unfold lookTcp; split
  · exact (conclude_down (h.phase (by decide))).mono (by decide)
  · exact ⟨rfl, h, by simp [ahead]⟩

private theorem lookEndpoints_down {c : KCluster} {st : KStatus} {seen : Seen} (h : Ext c st) :
    Down c 8 ahead (lookEndpoints c st seen) := by
  unfold lookEndpoints lookRoute
  split
  · split
    · exact (lookTcp_down h).mono (by decide)
    · exact ⟨rfl, h, by simp [ahead]⟩
  · exact (conclude_down h).mono (by decide)

private theorem withPod_down {c : KCluster} {st : KStatus} {pod : Option ContainerState} {seen : Seen}
    (h : Ext c st) : Down c 9 ahead (withPod c st pod seen) := by
  unfold withPod lookService
  split
  · split
    · exact (lookEndpoints_down h).mono (by decide)
    · exact ⟨rfl, h, by simp [ahead]⟩
  · exact (clean_down h (by decide)).mono (by decide)
  · exact (conclude_down h).mono (by decide)

private theorem lookPod_down {c : KCluster} {st : KStatus} {seen : Seen} (h : Ext c st) :
    Down c 10 ahead (lookPod c st seen) := by
  unfold lookPod; split
  · exact (withPod_down h).mono (by decide)
  · exact ⟨rfl, h, by simp [ahead]⟩

private theorem start_down (c : KCluster) (seen : Seen) : Down c 11 ahead (start c seen) := by
  have h := ext_self c
  have hc : Down c 11 ahead (clean c c.status .stopped seen) := (clean_down h (by decide)).mono (by decide)
  unfold start
  split
  · trivial
  · trivial
  · split
    · unfold startPending
      dsimp only
      have h' : Ext c { c.status with phase := some c.status.phaseOr } :=
        ⟨fun x hx => (by cases x <;> exact hx), fun _ => rfl⟩
      split
      · exact (lookPod_down h').mono (by decide)
      · exact ⟨rfl, h', by simp [ahead]⟩
    · exact hc
  · split
    · unfold startRunning
      split
      · exact (clean_down h (by decide)).mono (by decide)
      · exact ⟨rfl, h, by simp [ahead]⟩
      · exact (conclude_down h).mono (by decide)
    · exact hc
  · split
    · trivial
    · exact hc

private theorem after_down {r : Run} (ok : RunOk r) (h : Ext r.c r.st) (new : Bool) (seen : Seen) :
    Down r.c (ahead r.point) ahead (r.after new seen) := by
  have hat := ok.point
  unfold Run.At at hat
  have cl : ∀ p, r.Clean p → p ≠ .pending := by
    intro p hc e
    have := clean_final hc
    rw [e] at this; cases this
  unfold Run.after
  cases hp : r.point with
  | secret => exact (lookPod_down (h.note _))
  | pod => exact withPod_down (h.note _)
  | service => exact lookEndpoints_down (h.note _)
  | route => exact lookTcp_down (h.note _)
  | routeTcp => exact (conclude_down ((h.note _).phase (by decide))).mono (by decide)
  | delPod p =>
    rw [hp] at hat
    exact (cleanSecret_down h (cl p hat.2))
  | delSecret p =>
    rw [hp] at hat
    exact (conclude_down (h.ended (cl p hat.2) _)).mono (by simp [ahead])
  | scale => exact conclude_down h
  | patch => trivial

/-! ### Versions of the cluster object -/

/-- What holds of the versions in all executions. -/
private structure Aged (s : Loop) : Prop where
  first : s.versions[s.server.older.length]? = some Server.init.latest
  pods : ∀ i c, i < s.server.older.length → s.versions[i]? = some c → c.active = true → c.status.pod = true
  known : ∀ c ∈ s.versions, c.status.phaseOr ≠ .other
  run : ∀ r, s.run = some r → r.c = Server.init.latest ∨
    (s.lag < s.server.older.length ∧ r.c ≠ Server.init.latest ∧ (r.c.active = true → r.c.status.pod = true))
  ext : ∀ r, s.run = some r → Ext r.c r.st
  act : s.server.latest.active = true →
    (∀ c ∈ s.versions, c.active = true) ∧ ∀ r, s.run = some r → r.c.active = true

private theorem cached_at {s : Loop} (hl : s.lag ≤ s.server.older.length) :
    s.versions[s.lag]? = some s.cached := by
  unfold Loop.cached
  rw [show (s.server.latest :: s.server.older) = s.versions from rfl]
  rw [List.getElem?_eq_getElem (by unfold Loop.versions; simpa using Nat.lt_succ_of_le hl)]; rfl

private theorem aged_cached {s : Loop} (hv : Inv s) (h : Aged s) : s.cached = Server.init.latest ∨
    (s.lag < s.server.older.length ∧ s.cached ≠ Server.init.latest ∧
      (s.cached.active = true → s.cached.status.pod = true)) := by
  have hc := cached_at hv.lag
  rcases Nat.lt_or_eq_of_le hv.lag with hl | hl
  · right
    have hp := h.pods _ _ hl hc
    refine ⟨hl, fun e => ?_, hp⟩
    rw [e] at hp; cases hp rfl
  · left
    rw [hl, h.first] at hc
    exact (Option.some.inj hc).symm

private theorem aged_same {s t : Loop} (h : Aged s) (e1 : t.server.latest = s.server.latest)
    (e2 : t.server.older = s.server.older) (hl : t.lag ≤ s.lag) (hr : t.run = s.run ∨ t.run = none) : Aged t := by
  have hr' : ∀ r, t.run = some r → s.run = some r := by
    intro r e
    rcases hr with hr | hr
    · rw [← hr]; exact e
    · rw [hr] at e; cases e
  have hv : t.versions = s.versions := by unfold Loop.versions; rw [e1, e2]
  refine ⟨?_, ?_, ?_, ?_, ?_, ?_⟩
  · rw [hv, e2]; exact h.first
  · rw [hv, e2]; exact h.pods
  · rw [hv]; exact h.known
  · intro r e
    rcases h.run r (hr' r e) with g | g
    · exact Or.inl g
    · exact Or.inr ⟨by rw [e2]; exact Nat.lt_of_le_of_lt hl g.1, g.2⟩
  · exact fun r e => h.ext r (hr' r e)
  · intro e
    rw [e1] at e
    obtain ⟨a, b⟩ := h.act e
    exact ⟨by rw [hv]; exact a, fun r e => b r (hr' r e)⟩

private theorem aged_version {s : Loop} (h : Aged s) (c : KCluster)
    (hp : c.active = true → c.status.pod = true) (hk : c.status.phaseOr ≠ .other)
    (ha : c.active = true → s.server.latest.active = true) : Aged (s.version c) := by
  have hs := version_same s c
  rcases version_cases s c with ⟨_, e⟩ | ⟨_, e⟩
  · rw [e]; exact h
  · have hvs : (s.version c).versions = c :: s.versions := by rw [e]; rfl
    have hol : (s.version c).server.older.length = s.server.older.length + 1 := by rw [e]; rfl
    have hlg : (s.version c).lag = s.lag + 1 := by rw [e]
    have hlt : (s.version c).server.latest = c := by rw [e]
    refine ⟨?_, ?_, ?_, ?_, ?_, ?_⟩
    · rw [hvs, hol, List.getElem?_cons_succ]; exact h.first
    · rw [hvs, hol]
      intro i x hi hx
      cases i with
      | zero => rw [List.getElem?_cons_zero] at hx; cases hx; exact hp
      | succ i =>
        rw [List.getElem?_cons_succ] at hx
        exact h.pods i x (Nat.lt_of_succ_lt_succ hi) hx
    · rw [hvs]
      intro x hx
      rcases List.mem_cons.1 hx with rfl | hx
      · exact hk
      · exact h.known x hx
    · intro r e'
      rw [hs.run] at e'
      rw [hol, hlg]
      rcases h.run r e' with g | g
      · exact Or.inl g
      · exact Or.inr ⟨Nat.succ_lt_succ g.1, g.2⟩
    · rw [hs.run]; exact h.ext
    · rw [hlt, hs.run, hvs]
      intro e'
      obtain ⟨a, b⟩ := h.act (ha e')
      refine ⟨fun x hx => ?_, b⟩
      rcases List.mem_cons.1 hx with rfl | hx
      · exact e'
      · exact a x hx

private theorem aged_effect {s : Loop} (hv : Inv s) (h : Aged s) {r : Run} (hr : s.run = some r) :
    Aged (s.effect r) := by
  rcases effect_cases s r with ⟨x, hx, e⟩ | ⟨x, hx, e⟩ | ⟨hx, e⟩ | ⟨hx, e⟩
  · rw [e]
    have o := create_object s x
    exact aged_same h o.latest o.older (Nat.le_of_eq o.lag) (Or.inl (create_same s x).run)
  · rw [e]
    have o := delete_object s x
    exact aged_same h o.latest o.older (Nat.le_of_eq o.lag) (Or.inl (delete_same s x).run)
  · rw [e]
    have ok := hv.ok r hr
    refine aged_version h _ ?_ ?_ (fun e => e)
    · intro ha
      have hact := (h.act ha).2 r hr
      have hat := ok.point
      unfold Run.At at hat
      rw [hx] at hat
      obtain ⟨_, w | w | ⟨p, w, e⟩⟩ := hat
      · exact w.2.2.2.1
      · exact w.2.2.2.1
      · rcases w with w | w | w
        · rw [hact] at w; cases w.1
        · exact w.2.2.2.1
        · show r.st.pod = true
          rw [w.2.2.1]
          rcases h.run r hr with g | g
          · rw [g] at w; cases w.2.2.2.2
          · exact g.2.2 hact
    · show r.st.phaseOr ≠ .other
      rcases written_phase ok hx with w | w | w | w <;> rw [w.1] <;> decide
  · rw [e]; exact h

private theorem aged_goOn {s : Loop} (h : Aged { s with run := none }) {n : Next}
    (hn : ∀ r, n = .call r → (r.c = Server.init.latest ∨
      (s.lag < s.server.older.length ∧ r.c ≠ Server.init.latest ∧ (r.c.active = true → r.c.status.pod = true))) ∧
      Ext r.c r.st ∧ (s.server.latest.active = true → r.c.active = true)) : Aged (s.goOn n) := by
  cases n with
  | done => exact h
  | again => exact aged_same h rfl rfl (Nat.le_refl _) (Or.inl rfl)
  | call r =>
    obtain ⟨h1, h2, h3⟩ := hn r rfl
    refine ⟨h.first, h.pods, h.known, ?_, ?_, ?_⟩
    · intro r' e; cases e; exact h1
    · intro r' e; cases e; exact h2
    · intro ha
      exact ⟨(h.act ha).1, fun r' e => (by cases e; exact h3 ha)⟩

private theorem aged_step {s : Loop} (hv : Inv s) (h : Aged s) (op : Op) : Aged (s.step op) := by
  cases op with
  | stop =>
    refine aged_version h _ (fun e => (by cases e)) ?_ (fun e => (by cases e))
    exact h.known s.server.latest (List.mem_cons_self ..)
  | seeCluster n => exact aged_same h rfl rfl (Nat.sub_le _ _) (Or.inl rfl)
  | seePod n => exact aged_same h rfl rfl (Nat.le_refl _) (Or.inl rfl)
  | seeReady n => exact aged_same h rfl rfl (Nat.le_refl _) (Or.inl rfl)
  | endpointsTurn b => exact aged_same h rfl rfl (Nat.le_refl _) (Or.inl rfl)
  | restart => exact aged_same h rfl rfl (Nat.zero_le _) (Or.inr rfl)
  | podTurns x =>
    change Aged (s.podTurns x)
    unfold Loop.podTurns
    split
    · exact aged_same h rfl rfl (Nat.le_refl _) (Or.inl rfl)
    · exact h
  | vanish x =>
    change Aged (s.vanish x)
    unfold Loop.vanish
    split
    · exact aged_same h rfl rfl (Nat.le_refl _) (Or.inl rfl)
    · exact h
  | fire =>
    change Aged s.fire
    unfold Loop.fire
    split
    · exact aged_same h rfl rfl (Nat.le_refl _) (Or.inl rfl)
    · exact h
  | begin now =>
    change Aged (s.begin now)
    unfold Loop.begin
    split
    · refine aged_goOn
        (s := { s with queued := false, stopped := s.stopped || final s.cached.status.phaseOr })
        (aged_same h rfl rfl (Nat.le_refl _) (Or.inr rfl)) (fun r e => ?_)
      have d := start_down s.cached (s.seen now)
      rw [e] at d
      rw [d.1]
      exact ⟨aged_cached hv h, d.2.1, fun ha => (h.act ha).1 _ (cached_mem hv.lag)⟩
    · exact h
  | call out now =>
    change Aged (s.call out now)
    unfold Loop.call
    cases hr : s.run with
    | none => exact h
    | some r =>
      have he := aged_effect hv h hr
      have hr' : (s.effect r).run = some r := by rw [(effect_same s r).run]; exact hr
      cases out with
      | failed => exact aged_same h rfl rfl (Nat.le_refl _) (Or.inr rfl)
      | lost => exact aged_same he rfl rfl (Nat.le_refl _) (Or.inr rfl)
      | ok =>
        refine aged_goOn (aged_same he rfl rfl (Nat.le_refl _) (Or.inr rfl)) (fun r' e => ?_)
        have d := after_down (hv.ok r hr) (h.ext r hr) (s.isNew r) (s.seen now)
        rw [e] at d
        rw [d.1]
        exact ⟨he.run r hr', d.2.1, fun ha => (he.act ha).2 r hr'⟩

private theorem aged_init : Aged .init := by
  refine ⟨rfl, fun i c h => (by cases h), ?_, fun r h => (by cases h), fun r h => (by cases h), fun _ => ⟨?_, fun r h => (by cases h)⟩⟩
  · intro c hc
    rcases List.mem_cons.1 hc with rfl | hc
    · decide
    · cases hc
  · intro c hc
    rcases List.mem_cons.1 hc with rfl | hc
    · rfl
    · cases hc

private theorem reach_aged {P : Loop → Op → Prop} {s : Loop} (h : Reach P s) : Aged s := by
  induction h with
  | init => exact aged_init
  | step hr _ ih => exact aged_step (reach_inv hr) ih _

/-! ### The measure -/

private def weigh (c : KCluster) : Nat := 11 * (rank c.status + 1)

private theorem weigh_le (c : KCluster) : weigh c ≤ 99 := by
  have := rank_le c.status
  unfold weigh; omega

/-- The first `n` versions, which are still to be shown. -/
private def tally : Nat → List KCluster → Nat
  | 0, _ => 0
  | _ + 1, [] => 0
  | n + 1, c :: l => weigh c + 1 + tally n l

private theorem tally_at (n m : Nat) (l : List KCluster) (c : KCluster) (h : n < m) (hc : l[n]? = some c) :
    tally n l + weigh c + 1 ≤ tally m l := by
  induction n generalizing m l with
  | zero =>
    cases l with
    | nil => cases hc
    | cons x l =>
      rw [List.getElem?_cons_zero] at hc; cases hc
      cases m with
      | zero => cases h
      | succ m => unfold tally; omega
  | succ n ih =>
    cases l with
    | nil => cases hc
    | cons x l =>
      rw [List.getElem?_cons_succ] at hc
      cases m with
      | zero => cases h
      | succ m =>
        have := ih m l (Nat.lt_of_succ_lt_succ h) hc
        simp only [tally]; omega

/-- No version was shown yet in which the pod is recorded. -/
private def Fresh (s : Loop) : Prop :=
  s.lag = s.server.older.length ∨ ∃ r, s.run = some r ∧ r.c = Server.init.latest

open Classical in
/-- How many changes of the pod the controller may still cause. -/
private noncomputable def moves (s : Loop) : Nat :=
  if s.server.exist .pod = true then 2 else if Fresh s then 3 else 0

private def toRun : Option Run → Nat
  | none => 0
  | some r => ahead r.point + 11 * rank r.c.status

/-- An upper bound for the work that is left. -/
private noncomputable def work (s : Loop) : Nat :=
  tally s.lag s.versions + (if s.queued then weigh s.cached else 0) + (if s.timer then 100 else 0) +
    100 * (s.podNews.length + s.readyNews.length + moves s) + toRun s.run

private theorem moves_mono {s t : Loop} (he : t.server.exist .pod = s.server.exist .pod)
    (hf : Fresh t → Fresh s) : moves t ≤ moves s := by
  unfold moves
  rw [he]
  by_cases h1 : s.server.exist .pod = true
  · rw [if_pos h1, if_pos h1]; exact Nat.le_refl _
  · rw [if_neg h1, if_neg h1]
    by_cases h2 : Fresh t
    · rw [if_pos h2, if_pos (hf h2)]; exact Nat.le_refl _
    · rw [if_neg h2]; exact Nat.zero_le _

private theorem effect_tally {s : Loop} (hv : Inv s) (h : Aged s) {r : Run} (hr : s.run = some r) :
    tally (s.effect r).lag (s.effect r).versions ≤
      tally s.lag s.versions + (if r.point = .patch then 11 * rank r.c.status + 1 else 0) := by
  have same : ∀ t : Loop, SameObject s t → tally t.lag t.versions = tally s.lag s.versions := by
    intro t o
    unfold Loop.versions
    rw [o.latest, o.older, o.lag]
  rcases effect_cases s r with ⟨x, hx, e⟩ | ⟨x, hx, e⟩ | ⟨hx, e⟩ | ⟨hx, e⟩ <;> rw [e]
  · rw [same _ (create_object s x)]; exact Nat.le_add_right _ _
  · rw [same _ (delete_object s x)]; exact Nat.le_add_right _ _
  · rw [if_pos hx]
    have lt := rank_lt (hv.ok r hr) (h.ext r hr) hx
    rcases version_cases s { s.server.latest with status := r.st } with ⟨_, e⟩ | ⟨_, e⟩ <;> rw [e]
    · exact Nat.le_add_right _ _
    · show weigh { s.server.latest with status := r.st } + 1 + tally s.lag s.versions ≤ _
      have : weigh { s.server.latest with status := r.st } = 11 * (rank r.st + 1) := rfl
      omega
  · exact Nat.le_add_right _ _

private theorem effect_fresh {s : Loop} {r : Run} :
    (s.effect r).lag = (s.effect r).server.older.length → s.lag = s.server.older.length := by
  rcases effect_cases s r with ⟨x, hx, e⟩ | ⟨x, hx, e⟩ | ⟨hx, e⟩ | ⟨hx, e⟩ <;> rw [e]
  · have o := create_object s x
    rw [o.lag, o.older]; exact id
  · have o := delete_object s x
    rw [o.lag, o.older]; exact id
  · rcases version_cases s { s.server.latest with status := r.st } with ⟨_, e⟩ | ⟨_, e⟩ <;> rw [e]
    · exact id
    · exact fun h => Nat.succ.inj h
  · exact id

/-- Changes of the pod that the controller causes are counted. -/
private theorem effect_moves {s u : Loop} (hv : Inv s) (h : Aged s) {r : Run} (hr : s.run = some r)
    (hx : u.server.exist = (s.effect r).server.exist) (hf : Fresh u → Fresh s) :
    (s.effect r).podNews.length + moves u ≤ s.podNews.length + moves s := by
  have ok := hv.ok r hr
  have still : ∀ t : Loop, t.podNews = s.podNews → u.server.exist .pod = s.server.exist .pod →
      t.podNews.length + moves u ≤ s.podNews.length + moves s := by
    intro t e1 e2
    rw [e1]
    exact Nat.add_le_add_left (moves_mono e2 hf) _
  rcases effect_cases s r with ⟨x, hp, e⟩ | ⟨x, hp, e⟩ | ⟨hp, e⟩ | ⟨hp, e⟩ <;> rw [e] at hx ⊢
  · revert hx
    unfold Loop.create
    by_cases h1 : s.server.exist x = true
    · rw [if_pos h1]; intro hx; exact still _ rfl (by rw [hx])
    · rw [if_neg h1]
      by_cases h2 : x = .pod
      · subst h2
        rw [if_pos rfl]
        intro hx
        have e1 : u.server.exist .pod = true := by rw [hx]; rfl
        have hfr : Fresh s := by
          right
          refine ⟨r, hr, ?_⟩
          rcases h.run r hr with g | g
          · exact g
          · have := creates_pod ok hp
            rw [g.2.2 (creates_active ok hp)] at this; cases this
        have m1 : moves u = 2 := by unfold moves; rw [if_pos e1]
        have m2 : moves s = 3 := by unfold moves; rw [if_neg h1, if_pos hfr]
        rw [m1, m2]
        show (s.podNews ++ [some ContainerState.waiting]).length + 2 ≤ _
        rw [List.length_append]
        exact Nat.le_refl _
      · rw [if_neg h2]
        intro hx
        refine still _ rfl ?_
        rw [hx]; exact setExist_other h2
  · revert hx
    unfold Loop.delete
    by_cases h1 : s.server.exist x = true
    · rw [if_pos h1]
      by_cases h2 : x = .pod
      · subst h2
        rw [if_pos rfl]
        intro hx
        have e1 : ¬ u.server.exist .pod = true := by rw [hx]; exact fun h => (by cases h)
        have hni : r.c ≠ Server.init.latest := by
          intro hi
          rcases deletes_pod ok hp with d | ⟨_, d | d⟩ <;> rw [hi] at d <;> cases d
        have hnf : ¬ Fresh s := by
          rintro (hl | ⟨r', e, hi⟩)
          · rcases h.run r hr with g | g
            · exact hni g
            · exact absurd hl (Nat.ne_of_lt g.1)
          · rw [hr] at e; cases e; exact hni hi
        have m1 : moves u = 0 := by unfold moves; rw [if_neg e1, if_neg (fun x => hnf (hf x))]
        have m2 : moves s = 2 := by unfold moves; rw [if_pos h1]
        rw [m1, m2]
        show (s.podNews ++ [some ContainerState.terminated, none]).length + 0 ≤ _
        rw [List.length_append]
        exact Nat.le_refl _
      · rw [if_neg h2]
        intro hx
        refine still _ rfl ?_
        rw [hx]; exact setExist_other h2
    · rw [if_neg h1]; intro hx; exact still _ rfl (by rw [hx])
  · have ver : ∀ c, (s.version c).podNews = s.podNews ∧ (s.version c).server.exist = s.server.exist := by
      intro c
      rcases version_cases s c with ⟨_, e⟩ | ⟨_, e⟩ <;> rw [e] <;> exact ⟨rfl, rfl⟩
    exact still _ (ver _).1 (by rw [hx, (ver _).2])
  · exact still _ rfl (by rw [hx])

private theorem effect_ready (s : Loop) (r : Run) : (s.effect r).readyNews = s.readyNews := by
  rcases effect_cases s r with ⟨x, hp, e⟩ | ⟨x, hp, e⟩ | ⟨hp, e⟩ | ⟨hp, e⟩ <;> rw [e]
  · unfold Loop.create; split
    · rfl
    · split <;> rfl
  · unfold Loop.delete; split
    · split <;> rfl
    · rfl
  · unfold Loop.version; split <;> rfl

/-- A call does some of the work. -/
private theorem effect_work {s : Loop} (hv : Inv s) (h : Aged s) {r : Run} (hr : s.run = some r) (n : Next)
    (hn : ∀ r', n = .call r' → r'.c = r.c ∧ ahead r'.point < ahead r.point)
    (hd : r.point = .patch → n = .done) (ha : n ≠ .again) :
    work ((s.effect r).goOn n) < work s := by
  have sm := effect_same s r
  have h1 := effect_tally hv h hr
  have h2 : (s.effect r).podNews.length + moves ((s.effect r).goOn n) ≤ s.podNews.length + moves s := by
    refine effect_moves hv h hr (by cases n <;> rfl) (fun hf => ?_)
    have hl : ((s.effect r).goOn n).lag = ((s.effect r).goOn n).server.older.length →
        (s.effect r).lag = (s.effect r).server.older.length := by cases n <;> exact id
    rcases hf with hf | ⟨r', e, hi⟩
    · exact Or.inl (effect_fresh (hl hf))
    · right
      cases n with
      | done => cases e
      | again => cases e
      | call r'' =>
        cases e
        exact ⟨r, hr, by rw [← (hn _ rfl).1]; exact hi⟩
  have h3 : toRun ((s.effect r).goOn n).run + (if r.point = .patch then 11 * rank r.c.status + 1 else 0)
      < ahead r.point + 11 * rank r.c.status := by
    by_cases hp : r.point = .patch
    · rw [if_pos hp, hd hp, hp]
      show 0 + (11 * rank r.c.status + 1) < 2 + 11 * rank r.c.status
      omega
    · rw [if_neg hp]
      cases n with
      | done =>
        show 0 + 0 < _
        have : 0 < ahead r.point := by cases r.point <;> simp [ahead]
        omega
      | again => exact absurd rfl ha
      | call r' =>
        obtain ⟨e1, e2⟩ := hn _ rfl
        show ahead r'.point + 11 * rank r'.c.status + 0 < _
        rw [e1]; omega
  have hc := (effect_cached hv.lag r).1
  have e1 : ((s.effect r).goOn n).lag = (s.effect r).lag := by cases n <;> rfl
  have e2 : ((s.effect r).goOn n).versions = (s.effect r).versions := by cases n <;> rfl
  have e3 : ((s.effect r).goOn n).queued = s.queued := by rw [← sm.queued]; cases n <;> rfl
  have e4 : ((s.effect r).goOn n).timer = s.timer := by
    rw [← sm.timer]; cases n <;> first | rfl | exact absurd rfl ha
  have e5 : ((s.effect r).goOn n).podNews = (s.effect r).podNews := by cases n <;> rfl
  have e6 : ((s.effect r).goOn n).readyNews = s.readyNews := by rw [← effect_ready s r]; cases n <;> rfl
  have e7 : ((s.effect r).goOn n).cached = s.cached := by rw [goOn_cached, hc]
  unfold work
  rw [e1, e2, e3, e4, e5, e6, e7, hr]
  show _ < _ + (ahead r.point + 11 * rank r.c.status)
  omega

private theorem work_step {s : Loop} (hv : Inv s) (h : Aged s) (op : Op) (hw : Works s op) :
    work (s.step op) < work s := by
  have hq : (if s.queued then weigh s.cached else 0) ≤ 99 := by
    split
    · exact weigh_le _
    · exact Nat.zero_le _
  cases op with
  | stop => exact hw.elim
  | podTurns x => exact hw.elim
  | endpointsTurn b => exact hw.elim
  | vanish x => exact hw.elim
  | restart => exact hw.elim
  | seeCluster n =>
    change work (s.seeCluster n) < work s
    have hl : (s.seeCluster n).lag ≤ (s.seeCluster n).server.older.length :=
      Nat.le_trans (Nat.sub_le _ _) hv.lag
    have t := tally_at (s.lag - n) s.lag s.versions _ (by have := hw.1; have := hw.2; omega) (cached_at hl)
    have m : moves (s.seeCluster n) ≤ moves s := by
      refine moves_mono rfl ?_
      rintro (e | e)
      · left
        have := hv.lag
        have e : s.lag - n = s.server.older.length := e
        omega
      · exact Or.inr e
    unfold work
    show tally (s.lag - n) s.versions + weigh (s.seeCluster n).cached + (if s.timer then 100 else 0) +
      100 * (s.podNews.length + s.readyNews.length + moves (s.seeCluster n)) + toRun s.run < _
    omega
  | seePod n =>
    change work (s.seePod n) < work s
    have m : moves (s.seePod n) = moves s := rfl
    have l : (s.podNews.drop n).length + 1 ≤ s.podNews.length := by
      rw [List.length_drop]
      have := List.length_pos_iff.2 hw.2
      have := hw.1
      omega
    have hq' : (if (s.seePod n).queued then weigh s.cached else 0) ≤ 99 := by
      split
      · exact weigh_le _
      · exact Nat.zero_le _
    unfold work
    show tally s.lag s.versions + (if (s.seePod n).queued then weigh s.cached else 0) + (if s.timer then 100 else 0) +
      100 * ((s.podNews.drop n).length + s.readyNews.length + moves s) + toRun s.run < _
    omega
  | seeReady n =>
    change work (s.seeReady n) < work s
    have l : (s.readyNews.drop n).length + 1 ≤ s.readyNews.length := by
      rw [List.length_drop]
      have := List.length_pos_iff.2 hw.2
      have := hw.1
      omega
    have hq' : (if (s.seeReady n).queued then weigh s.cached else 0) ≤ 99 := by
      split
      · exact weigh_le _
      · exact Nat.zero_le _
    unfold work
    show tally s.lag s.versions + (if (s.seeReady n).queued then weigh s.cached else 0) + (if s.timer then 100 else 0) +
      100 * (s.podNews.length + (s.readyNews.drop n).length + moves s) + toRun s.run < _
    omega
  | fire =>
    change work s.fire < work s
    unfold Loop.fire
    have ht : s.timer = true := hw
    rw [if_pos ht]
    have := weigh_le s.cached
    unfold work
    rw [if_pos ht]
    show tally s.lag s.versions + weigh s.cached + 0 +
      100 * (s.podNews.length + s.readyNews.length + moves s) + toRun s.run < _
    omega
  | begin now =>
    change work (s.begin now) < work s
    have hw' : s.queued = true ∧ s.run = none := hw
    unfold Loop.begin
    rw [if_pos hw']
    have fine := start_fine s.cached (s.seen now)
    have down := start_down s.cached (s.seen now)
    generalize start s.cached (s.seen now) = n at fine down
    generalize ht : ({ s with queued := false, stopped := s.stopped || final s.cached.status.phaseOr } : Loop) = t
    have m : moves (t.goOn n) ≤ moves s := by
      refine moves_mono (by subst ht; cases n <;> rfl) ?_
      have lag : (t.goOn n).lag = (t.goOn n).server.older.length → s.lag = s.server.older.length := by
        subst ht; cases n <;> exact id
      rintro (e | ⟨r, e, hi⟩)
      · exact Or.inl (lag e)
      · left
        cases n with
        | done => subst ht; rw [show ∀ x : Loop, (x.goOn .done).run = none from fun _ => rfl] at e; cases e
        | again => subst ht; rw [show ∀ x : Loop, (x.goOn .again).run = none from fun _ => rfl] at e; cases e
        | call r' =>
          cases e
          rcases aged_cached hv h with c | c
          · rcases Nat.lt_or_eq_of_le hv.lag with hl | hl
            · have := h.pods _ _ hl (cached_at hv.lag)
              rw [c] at this; cases this rfl
            · exact hl
          · exact absurd (down.1.symm.trans hi) c.2.1
    have r : toRun (t.goOn n).run ≤ 10 + 11 * rank s.cached.status := by
      cases n with
      | done => exact Nat.zero_le _
      | again => exact Nat.zero_le _
      | call r' =>
        show ahead r'.point + 11 * rank r'.c.status ≤ _
        have d := down.2.2
        rw [down.1]; omega
    have tm : (t.goOn n).timer = s.timer := by
      subst ht
      cases n with
      | done => rfl
      | call r' => rfl
      | again => exact absurd fine (h.known _ (cached_mem hv.lag))
    have e1 : tally (t.goOn n).lag (t.goOn n).versions = tally s.lag s.versions := by subst ht; cases n <;> rfl
    have e2 : (t.goOn n).queued = false := by subst ht; cases n <;> rfl
    have e3 : (t.goOn n).podNews = s.podNews := by subst ht; cases n <;> rfl
    have e4 : (t.goOn n).readyNews = s.readyNews := by subst ht; cases n <;> rfl
    unfold work
    rw [e1, e2, e3, e4, tm, hw'.1, hw'.2, if_pos rfl]
    have : weigh s.cached = 11 * (rank s.cached.status + 1) := rfl
    show _ + 0 + _ + _ + _ < _ + 0
    omega
  | call out now =>
    change work (s.call out now) < work s
    obtain ⟨e, hr⟩ := (hw : out = .ok ∧ s.run ≠ none)
    subst e
    unfold Loop.call
    cases hr' : s.run with
    | none => exact absurd hr' hr
    | some r =>
      have ok := hv.ok r hr'
      have fine := after_fine ok (s.isNew r) (s.seen now)
      have down := after_down ok (h.ext r hr') (s.isNew r) (s.seen now)
      refine effect_work hv h hr' _ ?_ ?_ ?_
      · intro r' e
        rw [e] at down
        exact ⟨down.1, down.2.2⟩
      · intro e
        unfold Run.after; rw [e]
      · intro e
        rw [e] at fine; exact fine

/-- C131: whatever requests, changes, failures of calls and crashes of the controller there were and however
they interleaved: if nothing more happens from outside and calls succeed, the controller gets to where nothing
is left to do for the cluster, in whatever order it takes its steps: as long as something is left it can do
something, and it cannot go on for ever. -/
theorem C131_settles (s : Loop) (h : Reach Any s) :
    (Quiet s ∨ ∃ op, Works s op) ∧ ∃ n, ∀ ops, Working s ops → ops.length ≤ n := by
  constructor
  · by_cases h1 : s.lag = 0
    · by_cases h2 : s.podNews = []
      · by_cases h3 : s.readyNews = []
        · cases h6 : s.run with
          | some r => exact Or.inr ⟨.call .ok 0, rfl, by rw [h6]; exact fun e => (by cases e)⟩
          | none =>
            cases h4 : s.queued with
            | true => exact Or.inr ⟨.begin 0, h4, h6⟩
            | false =>
              cases h5 : s.timer with
              | true => exact Or.inr ⟨.fire, h5⟩
              | false => exact Or.inl ⟨h1, h2, h3, h4, h5, h6⟩
        · exact Or.inr ⟨.seeReady 1, by decide, h3⟩
      · exact Or.inr ⟨.seePod 1, by decide, h2⟩
    · exact Or.inr ⟨.seeCluster 1, by decide, Nat.pos_of_ne_zero h1⟩
  · refine ⟨work s, fun ops => ?_⟩
    induction ops generalizing s with
    | nil => exact fun _ => Nat.zero_le _
    | cons op ops ih =>
      rintro ⟨hw, hws⟩
      have := ih _ (.step h trivial) hws
      have := work_step (reach_inv h) (reach_aged h) op hw
      rw [List.length_cons]; omega

/-- C131: in particular it gets there. -/
theorem C131_reaches (s : Loop) (h : Reach Any s) :
    ∃ ops, Working s ops ∧ Quiet (ops.foldl Loop.step s) := by
  have key : ∀ n s, Reach Any s → work s ≤ n → ∃ ops, Working s ops ∧ Quiet (ops.foldl Loop.step s) := by
    intro n
    induction n with
    | zero =>
      intro s h hl
      rcases (C131_settles s h).1 with q | ⟨op, hw⟩
      · exact ⟨[], trivial, q⟩
      · have := work_step (reach_inv h) (reach_aged h) op hw
        omega
    | succ n ih =>
      intro s h hl
      rcases (C131_settles s h).1 with q | ⟨op, hw⟩
      · exact ⟨[], trivial, q⟩
      · have := work_step (reach_inv h) (reach_aged h) op hw
        obtain ⟨ops, h1, h2⟩ := ih _ (.step h (op := op) trivial) (by omega)
        exact ⟨op :: ops, ⟨hw, h1⟩, h2⟩
  exact key _ s h (Nat.le_refl _)

/-- The first steps of a new cluster, after which it waits for its scheduler. -/
example : Working .init [.begin 0, .call .ok 0, .call .ok 0, .call .ok 0, .seeCluster 1, .begin 1, .seePod 1] ∧
    Quiet (([.begin 0, .call .ok 0, .call .ok 0, .call .ok 0, .seeCluster 1, .begin 1, .seePod 1] : List Op).foldl
      Loop.step .init) :=
  ⟨⟨⟨rfl, rfl⟩, ⟨rfl, by decide⟩, ⟨rfl, by decide⟩, ⟨rfl, by decide⟩, ⟨by decide, by decide⟩, ⟨rfl, rfl⟩,
    ⟨by decide, by decide⟩, trivial⟩, ⟨by decide, by decide, by decide, by decide, by decide, by decide⟩⟩

/-- Only calls that succeed count: if each fails, the controller tries again for ever. -/
example : ∀ n, (List.replicate n ([.begin 0, .call .failed 0, .fire] : List Op)).flatten.foldl Loop.step .init
    = .init := by
  intro n
  induction n with
  | zero => rfl
  | succ n ih => rw [List.replicate_succ, List.flatten_cons, List.foldl_append]; exact ih

end Verif.KubeLoop
