import Verif.KubeLoop.Props
/-! Property C129: what a stop of a cluster on Kubernetes leaves behind. -/
set_option linter.unusedSimpArgs false
set_option linter.unusedVariables false
namespace Verif.KubeLoop
open Verif.Kube

/-! ### Specification -/

/-- The cluster object records the scheduler pod and the credentials. -/
def Recorded (c : KCluster) : Prop := c.status.pod = true ∧ c.status.secret = true

/-- Users stop the cluster only after the controller has recorded its scheduler pod and credentials. -/
def StopLate (s : Loop) (op : Op) : Prop := op = .stop → Recorded s.server.latest

/-! ### The start of a cleanup -/

/-- A cleanup starts with its first call. -/
private def Entry : Next → Prop
  | .call r => (∀ p, r.point ≠ .delSecret p) ∧ (r.point = .patch → final r.st.phaseOr = false)
  | _ => True

private theorem conclude_entry {c : KCluster} {st : KStatus} (h : final st.phaseOr = false) :
    Entry (conclude c st) := by
  unfold conclude
  split
  · trivial
  · exact ⟨fun p => (by simp), fun _ => h⟩

private theorem clean_entry {c : KCluster} {st : KStatus} {p : Phase} {seen : Seen} (h : st.pod = true) :
    Entry (clean c st p seen) := by
  unfold clean
  rw [if_pos h]
  exact ⟨fun p => (by simp), fun h => (by cases h)⟩

private theorem call_entry {c : KCluster} {st : KStatus} {p : Point} (h : ∀ q, p ≠ .delSecret q)
    (h' : p ≠ .patch) : Entry (.call ⟨c, st, p⟩) := ⟨h, fun e => absurd e h'⟩

private theorem lookTcp_entry (c : KCluster) (st : KStatus) : Entry (lookTcp c st) := by
  unfold lookTcp
  split
  · exact conclude_entry rfl
  · exact call_entry (by simp) (by simp)

private theorem lookEndpoints_entry {c : KCluster} {st : KStatus} {seen : Seen}
    (h : st.phase = some .pending) : Entry (lookEndpoints c st seen) := by
  unfold lookEndpoints
  split
  · unfold lookRoute
    split
    · exact lookTcp_entry c st
    · exact call_entry (by simp) (by simp)
  · refine conclude_entry ?_
    unfold KStatus.phaseOr; rw [h]; decide

private theorem withPod_entry {c : KCluster} {st : KStatus} {pod : Option ContainerState} {seen : Seen}
    (h : st.phase = some .pending) (hp : st.pod = true) : Entry (withPod c st pod seen) := by
  unfold withPod
  split
  · unfold lookService
    split
    · exact lookEndpoints_entry h
    · exact call_entry (by simp) (by simp)
  · exact clean_entry hp
  · refine conclude_entry ?_
    unfold KStatus.phaseOr; rw [h]; decide

private theorem lookPod_entry {c : KCluster} {st : KStatus} {seen : Seen}
    (h : st.phase = some .pending) : Entry (lookPod c st seen) := by
  unfold lookPod
  split
  · exact withPod_entry h (by assumption)
  · exact call_entry (by simp) (by simp)

private theorem start_entry {c : KCluster} {seen : Seen}
    (h : Recorded c ∨ (c.active = true ∧ c.status.phaseOr = .pending)) : Entry (start c seen) := by
  have stop : c.active ≠ true → ∀ p, Entry (clean c c.status p seen) := by
    intro ha p
    rcases h with h | h
    · exact clean_entry h.1
    · exact absurd h.1 ha
  unfold start
  split
  · trivial
  · trivial
  · rename_i hp
    split
    · unfold startPending
      dsimp only
      rw [hp]
      split
      · exact lookPod_entry rfl
      · exact call_entry (by simp) (by simp)
    · exact stop (by assumption) _
  · rename_i hp
    split
    · rename_i ha
      have hr : Recorded c := by
        rcases h with h | h
        · exact h
        · rw [h.2] at hp; cases hp
      unfold startRunning
      split
      · exact clean_entry hr.1
      · exact call_entry (by simp) (by simp)
      · exact conclude_entry (by rw [hp]; decide)
    · exact stop (by assumption) _
  · split
    · trivial
    · exact stop (by assumption) _

/-- A cleanup does not skip calls. -/
private theorem after_entry {r : Run} (ok : RunOk r) {new : Bool} {seen : Seen}
    (h1 : ∀ p, r.point ≠ .delPod p) (h2 : ∀ p, r.point ≠ .delSecret p) :
    Entry (r.after new seen) := by
  have hat := ok.point
  unfold Run.At at hat
  unfold Run.after
  cases hp : r.point with
  | secret => rw [hp] at hat; exact lookPod_entry hat.1.2.2
  | pod => rw [hp] at hat; exact withPod_entry hat.1.2.2 rfl
  | service => rw [hp] at hat; exact lookEndpoints_entry hat.1.2.2
  | route => exact lookTcp_entry _ _
  | routeTcp => exact conclude_entry rfl
  | delPod p => exact absurd hp (h1 p)
  | delSecret p => exact absurd hp (h2 p)
  | scale =>
    rw [hp] at hat
    dsimp only
    unfold conclude
    rw [if_pos hat.2.2.1]
    trivial
  | patch => trivial

/-! ### C129 -/

/-- What holds if users stop the cluster only after it has been recorded. -/
private structure Held (s : Loop) : Prop where
  /-- all versions but the first record the pod and the credentials -/
  recorded : ∀ i c, i < s.server.older.length → (s.server.latest :: s.server.older)[i]? = some c → Recorded c
  /-- the first version -/
  first : (s.server.latest :: s.server.older)[s.server.older.length]? = some Server.init.latest
  /-- a reconciliation is of the first version, or the cache has a later one -/
  given : ∀ r, s.run = some r → r.c = Server.init.latest ∨ (Recorded r.c ∧ s.lag < s.server.older.length)
  /-- the pod is deleted before the credentials, and both before the end is recorded -/
  pod : ∀ r p, s.run = some r → r.point = .delSecret p → s.server.exist .pod = false
  both : ∀ r, s.run = some r → r.point = .patch → final r.st.phaseOr = true →
    s.server.exist .pod = false ∧ s.server.exist .secret = false
  /-- once the end is recorded nothing is created any more -/
  over : (∃ c ∈ s.server.latest :: s.server.older, Over c.status.phaseOr) →
    s.server.exist .pod = false ∧ s.server.exist .secret = false ∧ s.lag < s.server.older.length ∧
    ∀ r, s.run = some r → Recorded r.c

private theorem init_not_over : ¬ Over Server.init.latest.status.phaseOr := by
  rintro (h | h) <;> cases h

private theorem held_cached {s : Loop} (hv : Inv s) (h : Held s) :
    s.cached = Server.init.latest ∨ (Recorded s.cached ∧ s.lag < s.server.older.length) := by
  rcases Nat.lt_or_eq_of_le hv.lag with hl | hl
  · right
    refine ⟨?_, hl⟩
    have : (s.server.latest :: s.server.older)[s.lag]? = some s.cached := by
      unfold Loop.cached
      rw [List.getElem?_eq_getElem (by simpa using Nat.lt_succ_of_lt hl)]; rfl
    exact h.recorded _ _ hl this
  · left
    unfold Loop.cached
    rw [hl, h.first]; rfl

/-- What is written is recorded, and an end is written only by a reconciliation of a recorded version. -/
private theorem written_recorded {r : Run} (ok : RunOk r) (hp : r.point = .patch)
    (hc : r.c = Server.init.latest ∨ Recorded r.c) :
    (r.st.pod = true ∧ r.st.secret = true) ∧ (final r.st.phaseOr = true → Recorded r.c) := by
  have hat := ok.point
  unfold Run.At at hat
  rw [hp] at hat
  obtain ⟨_, h | h | ⟨p, h, hph⟩⟩ := hat
  · refine ⟨⟨h.2.2.2.1, h.2.2.1⟩, fun hf => ?_⟩
    unfold KStatus.phaseOr at hf
    rw [h.2.2.2.2] at hf; cases hf
  · refine ⟨⟨h.2.2.2.1, h.2.2.1⟩, fun hf => ?_⟩
    unfold KStatus.phaseOr at hf
    rw [h.2.2.2.2.2] at hf; cases hf
  · rcases h with ⟨ha, _, e1, e2⟩ | ⟨_, _, e1, e2, _, e3⟩ | ⟨_, _, e1, e2, hr⟩
    · rcases hc with hc | hc
      · rw [hc] at ha; cases ha
      · exact ⟨⟨by rw [e1]; exact hc.1, by rw [e2]; exact hc.2⟩, fun _ => hc⟩
    · rcases hc with hc | hc
      · rw [hc] at e1; cases e1
      · exact ⟨⟨e2, e3⟩, fun _ => hc⟩
    · rcases hc with hc | hc
      · rw [hc] at hr; cases hr
      · exact ⟨⟨by rw [e1]; exact hc.1, by rw [e2]; exact hc.2⟩, fun _ => hc⟩

/-- A cleanup is of a recorded version. -/
private theorem clean_recorded {r : Run} {p : Phase} (h : r.Clean p)
    (hc : r.c = Server.init.latest ∨ Recorded r.c) : Recorded r.c := by
  rcases hc with hc | hc
  · exfalso
    rcases h with ⟨ha, _⟩ | ⟨_, _, e1, _⟩ | ⟨_, _, e1, e2, hr⟩
    · rw [hc] at ha; cases ha
    · rw [hc] at e1; cases e1
    · rw [hc] at hr; cases hr
  · exact hc

/-- and so is the status so far -/
private theorem clean_secret {r : Run} {p : Phase} (h : r.Clean p)
    (hc : r.c = Server.init.latest ∨ Recorded r.c) : r.st.secret = true := by
  have := clean_recorded h hc
  rcases h with ⟨_, _, _, e⟩ | ⟨_, _, _, _, _, e⟩ | ⟨_, _, _, e, _⟩
  · rw [e]; exact this.2
  · exact e
  · rw [e]; exact this.2

private theorem held_init : Held .init := by
  refine ⟨?_, rfl, ?_, ?_, ?_, ?_⟩
  · intro i c h; cases h
  · intro r h; cases h
  · intro r p h; cases h
  · intro r h; cases h
  · rintro ⟨c, hc, ho⟩
    rcases List.mem_cons.1 hc with rfl | hc
    · exact absurd ho init_not_over
    · cases hc

/-- A step that leaves the cluster object and the reconciliation alone and creates nothing. -/
private theorem held_same {s t : Loop} (h : Held s) (e1 : t.server.latest = s.server.latest)
    (e2 : t.server.older = s.server.older) (hl : t.lag ≤ s.lag) (hr : t.run = s.run ∨ t.run = none)
    (he : ∀ x, s.server.exist x = false → t.server.exist x = false) : Held t := by
  have hr' : ∀ r, t.run = some r → s.run = some r := by
    intro r e
    rcases hr with hr | hr
    · rw [← hr]; exact e
    · rw [hr] at e; cases e
  refine ⟨?_, ?_, ?_, ?_, ?_, ?_⟩
  · rw [e1, e2]; exact h.recorded
  · rw [e1, e2]; exact h.first
  · intro r e
    rw [e2]
    rcases h.given r (hr' r e) with g | g
    · exact Or.inl g
    · exact Or.inr ⟨g.1, Nat.lt_of_le_of_lt hl g.2⟩
  · intro r p e q; exact he _ (h.pod r p (hr' r e) q)
  · intro r e q f
    have := h.both r (hr' r e) q f
    exact ⟨he _ this.1, he _ this.2⟩
  · rw [e1, e2]
    intro o
    obtain ⟨o1, o2, o3, o4⟩ := h.over o
    exact ⟨he _ o1, he _ o2, Nat.lt_of_le_of_lt hl o3, fun r e => o4 r (hr' r e)⟩

/-- The cluster object gets a new version that is recorded. -/
private theorem held_version {s : Loop} (h : Held s) (c : KCluster) (hc : Recorded c)
    (ho : Over c.status.phaseOr → (∃ c ∈ s.server.latest :: s.server.older, Over c.status.phaseOr) ∨
      (s.server.exist .pod = false ∧ s.server.exist .secret = false ∧ s.lag < s.server.older.length ∧
        ∀ r, s.run = some r → Recorded r.c)) : Held (s.version c) := by
  rcases version_cases s c with ⟨_, e⟩ | ⟨_, e⟩
  · rw [e]; exact h
  · rw [e]
    refine ⟨?_, ?_, ?_, h.pod, h.both, ?_⟩
    · intro i c' hl hg
      dsimp only at hl hg
      cases i with
      | zero =>
        rw [List.getElem?_cons_zero] at hg
        cases hg; exact hc
      | succ i =>
        rw [List.getElem?_cons_succ] at hg
        exact h.recorded i c' (Nat.lt_of_succ_lt_succ hl) hg
    · dsimp only [List.length_cons]
      rw [List.getElem?_cons_succ]
      exact h.first
    · intro r e
      rcases h.given r e with g | g
      · exact Or.inl g
      · exact Or.inr ⟨g.1, Nat.succ_lt_succ g.2⟩
    · rintro ⟨x, hx, hox⟩
      have key : (∃ c ∈ s.server.latest :: s.server.older, Over c.status.phaseOr) ∨
          (s.server.exist .pod = false ∧ s.server.exist .secret = false ∧ s.lag < s.server.older.length ∧
            ∀ r, s.run = some r → Recorded r.c) := by
        rcases List.mem_cons.1 hx with rfl | hx
        · exact ho hox
        · exact Or.inl ⟨x, hx, hox⟩
      have : s.server.exist .pod = false ∧ s.server.exist .secret = false ∧ s.lag < s.server.older.length ∧
          ∀ r, s.run = some r → Recorded r.c := by
        rcases key with k | k
        · exact h.over k
        · exact k
      exact ⟨this.1, this.2.1, Nat.succ_lt_succ this.2.2.1, this.2.2.2⟩

/-- What a call does to the objects. -/
private theorem effect_exist (s : Loop) (r : Run) (x : Res) :
    (s.effect r).server.exist x =
      if r.point.creates = some x then true else if r.point.deletes = some x then false
      else s.server.exist x := by
  rcases effect_cases s r with ⟨y, hy, e⟩ | ⟨y, hy, e⟩ | ⟨hy, e⟩ | ⟨hy, e⟩
  · rw [e, hy]
    unfold Loop.create
    have hd : r.point.deletes = none := by cases hq : r.point <;> rw [hq] at hy <;> first | rfl | cases hy
    rw [hd]
    by_cases hx : s.server.exist y = true
    · rw [if_pos hx]
      by_cases exy : x = y
      · subst exy; simp [hx]
      · have : ¬ (some y = some x) := fun h => exy (Option.some.inj h).symm
        simp [this]
    · rw [if_neg hx]
      by_cases hpod : y = .pod
      · rw [if_pos hpod]; subst hpod
        unfold setExist
        by_cases exy : x = .pod
        · subst exy; simp
        · have : ¬ (some Res.pod = some x) := fun h => exy (Option.some.inj h).symm
          simp [exy, this]
      · rw [if_neg hpod]
        unfold setExist
        by_cases exy : x = y
        · subst exy; simp
        · have : ¬ (some y = some x) := fun h => exy (Option.some.inj h).symm
          simp [exy, this]
  · rw [e, hy]
    unfold Loop.delete
    have hd : r.point.creates = none := by cases hq : r.point <;> rw [hq] at hy <;> first | rfl | cases hy
    rw [hd]
    by_cases hx : s.server.exist y = true
    · rw [if_pos hx]
      by_cases hpod : y = .pod
      · rw [if_pos hpod]; subst hpod
        unfold setExist
        by_cases exy : x = .pod
        · subst exy; simp
        · have : ¬ (some Res.pod = some x) := fun h => exy (Option.some.inj h).symm
          simp [exy, this]
      · rw [if_neg hpod]
        unfold setExist
        by_cases exy : x = y
        · subst exy; simp
        · have : ¬ (some y = some x) := fun h => exy (Option.some.inj h).symm
          simp [exy, this]
    · rw [if_neg hx]
      by_cases exy : x = y
      · subst exy; simp; simpa using hx
      · have : ¬ (some y = some x) := fun h => exy (Option.some.inj h).symm
        simp [this]
  · rw [e, hy]
    have : (s.version { s.server.latest with status := r.st }).server.exist = s.server.exist := by
      rcases version_cases s { s.server.latest with status := r.st } with ⟨_, e⟩ | ⟨_, e⟩ <;> rw [e]
    rw [this]; rfl
  · rw [e, hy]; rfl

/-- The reconciliation ends. -/
private theorem held_end {s : Loop} (h : Held s) (t : Bool) : Held { s with run := none, timer := t } :=
  held_same h rfl rfl (Nat.le_refl _) (Or.inr rfl) (fun _ e => e)

/-- A call takes effect. -/
private theorem held_effect {s : Loop} (hv : Inv s) (h : Held s) {r : Run} (hr : s.run = some r) :
    Held { s.effect r with run := none } := by
  have ok := hv.ok r hr
  have hg := h.given r hr
  have hg' : r.c = Server.init.latest ∨ Recorded r.c := hg.imp id And.left
  have base : Held { s with run := none } := held_end h s.timer
  rcases effect_cases s r with ⟨x, hx, e⟩ | ⟨x, hx, e⟩ | ⟨hx, e⟩ | ⟨hx, e⟩
  · -- a creation: not of the pod or the credentials if the end is recorded
    have o := create_object s x
    rw [← e] at o
    refine ⟨?_, ?_, ?_, ?_, ?_, ?_⟩
    · dsimp only; rw [o.latest, o.older]; exact h.recorded
    · dsimp only; rw [o.latest, o.older]; exact h.first
    · intro r' e'; cases e'
    · intro r' p e'; cases e'
    · intro r' e'; cases e'
    · dsimp only
      rw [o.latest, o.older, o.lag]
      intro ov
      obtain ⟨o1, o2, o3, o4⟩ := h.over ov
      have hrec := o4 r hr
      have hat := ok.point
      unfold Run.At at hat
      have n1 : r.point.creates ≠ some .pod := by
        intro hc
        have : r.point = .pod := by
          cases hp : r.point <;> rw [hp] at hc <;> first | rfl | cases hc
        rw [this] at hat
        rw [hrec.1] at hat; cases hat.2.1
      have n2 : r.point.creates ≠ some .secret := by
        intro hc
        have : r.point = .secret := by
          cases hp : r.point <;> rw [hp] at hc <;> first | rfl | cases hc
        rw [this] at hat
        rw [hrec.2] at hat; cases hat.2.1
      have hd : r.point.deletes = none := by
        cases hq : r.point <;> rw [hq] at hx <;> first | rfl | cases hx
      refine ⟨?_, ?_, o3, fun r' e' => (by cases e')⟩
      · rw [effect_exist, if_neg n1, hd]; exact o1
      · rw [effect_exist, if_neg n2, hd]; exact o2
  · have o := delete_object s x
    rw [← e] at o
    refine held_same base o.latest o.older (Nat.le_of_eq o.lag) (Or.inl rfl) (fun y hy => ?_)
    show (s.effect r).server.exist y = false
    rw [effect_exist]
    have hd : r.point.creates = none := by
      cases hq : r.point <;> rw [hq] at hx <;> first | rfl | cases hx
    rw [hd, if_neg (by simp)]
    split
    · rfl
    · exact hy
  · have w := written_recorded ok hx hg'
    have hver := held_version h { s.server.latest with status := r.st } w.1 (fun ho => by
      have hf : final r.st.phaseOr = true := final_iff.2 ho
      have hrec := w.2 hf
      have hb := h.both r hr hx hf
      refine Or.inr ⟨hb.1, hb.2, ?_, ?_⟩
      · rcases hg with g | g
        · rw [g] at hrec; cases hrec.1
        · exact g.2
      · intro r' e'
        rw [hr] at e'; cases e'
        exact hrec)
    rw [e]
    exact held_same hver rfl rfl (Nat.le_refl _) (Or.inr rfl) (fun _ e => e)
  · rw [e]; exact base

/-- The reconciliation goes on. -/
private theorem held_goOn {s : Loop} (h : Held { s with run := none }) {n : Next}
    (hn : ∀ r, n = .call r →
      (r.c = Server.init.latest ∨ (Recorded r.c ∧ s.lag < s.server.older.length)) ∧
      (∀ p, r.point = .delSecret p → s.server.exist .pod = false) ∧
      (r.point = .patch → final r.st.phaseOr = true →
        s.server.exist .pod = false ∧ s.server.exist .secret = false) ∧
      ((∃ c ∈ s.server.latest :: s.server.older, Over c.status.phaseOr) → Recorded r.c)) :
    Held (s.goOn n) := by
  cases n with
  | done => exact h
  | again => exact held_end h true
  | call r =>
    obtain ⟨n1, n2, n3, n4⟩ := hn r rfl
    refine ⟨h.recorded, h.first, ?_, ?_, ?_, ?_⟩
    · intro r' e; cases e; exact n1
    · intro r' p e; cases e; exact n2 p
    · intro r' e; cases e; exact n3
    · intro o
      obtain ⟨o1, o2, o3, _⟩ := h.over o
      exact ⟨o1, o2, o3, fun r' e => (by cases e; exact n4 o)⟩

private theorem held_call {s : Loop} (hv : Inv s) (h : Held s) (out : Outcome) (now : Nat) :
    Held (s.call out now) := by
  unfold Loop.call
  cases hr : s.run with
  | none => exact h
  | some r =>
    cases out with
    | failed => exact held_end h true
    | lost => exact held_end (held_effect hv h hr) true
    | ok =>
      dsimp only
      have ok := hv.ok r hr
      have hg := h.given r hr
      have hg' : r.c = Server.init.latest ∨ Recorded r.c := hg.imp id And.left
      have hat := ok.point
      unfold Run.At at hat
      refine held_goOn (held_effect hv h hr) ?_
      intro r' e
      have fine := after_fine ok (s.isNew r) (s.seen now)
      rw [e] at fine
      have hc : r'.c = r.c := fine.1
      by_cases hpatch : r.point = .patch
      · unfold Run.after at e
        rw [hpatch] at e; cases e
      have o : SameObject s (s.effect r) := by
        rcases effect_cases s r with ⟨x, _, e⟩ | ⟨x, _, e⟩ | ⟨hx, e⟩ | ⟨hx, e⟩
        · rw [e]; exact create_object s x
        · rw [e]; exact delete_object s x
        · exact absurd hx hpatch
        · rw [e]; exact .refl s
      rw [hc, o.lag, o.older, o.latest]
      refine ⟨hg, ?_, ?_, fun ov => (h.over ov).2.2.2 r hr⟩
      · intro p hp
        cases hq : r.point with
        | delPod q =>
          rw [effect_exist, hq]; rfl
        | delSecret q =>
          exfalso
          unfold Run.after at e
          rw [hq] at e
          dsimp only at e
          unfold conclude at e
          split at e
          · cases e
          · cases e; cases hp
        | _ =>
          exfalso
          have := after_entry ok (new := s.isNew r) (seen := s.seen now) (by rw [hq]; simp) (by rw [hq]; simp)
          rw [e] at this
          exact this.1 p hp
      · intro hp hf
        cases hq : r.point with
        | delPod q =>
          exfalso
          rw [hq] at hat
          have hs := clean_secret hat.2 hg'
          unfold Run.after at e
          rw [hq] at e
          dsimp only at e
          unfold cleanSecret at e
          rw [if_pos hs] at e
          cases e; cases hp
        | delSecret q =>
          rw [effect_exist, effect_exist, hq]
          exact ⟨h.pod r q hr hq, rfl⟩
        | _ =>
          exfalso
          have := after_entry ok (new := s.isNew r) (seen := s.seen now) (by rw [hq]; simp) (by rw [hq]; simp)
          rw [e] at this
          rw [this.2 hp] at hf; cases hf

private theorem held_step {s : Loop} (hv : Inv s) (h : Held s) (op : Op) (hp : StopLate s op) :
    Held (s.step op) := by
  cases op with
  | stop =>
    refine held_version h _ (hp rfl) (fun ho => Or.inl ⟨s.server.latest, List.mem_cons_self .., ho⟩)
  | seeCluster n => exact held_same h rfl rfl (Nat.sub_le _ _) (Or.inl rfl) (fun _ e => e)
  | seePod n => exact held_same h rfl rfl (Nat.le_refl _) (Or.inl rfl) (fun _ e => e)
  | seeReady n => exact held_same h rfl rfl (Nat.le_refl _) (Or.inl rfl) (fun _ e => e)
  | podTurns x =>
    show Held (s.podTurns x)
    unfold Loop.podTurns
    split
    · exact held_same h rfl rfl (Nat.le_refl _) (Or.inl rfl) (fun _ e => e)
    · exact h
  | endpointsTurn b => exact held_same h rfl rfl (Nat.le_refl _) (Or.inl rfl) (fun _ e => e)
  | vanish r =>
    show Held (s.vanish r)
    unfold Loop.vanish
    split
    · refine held_same h rfl rfl (Nat.le_refl _) (Or.inl rfl) (fun x e => ?_)
      show setExist s.server.exist r false x = false
      unfold setExist
      split
      · rfl
      · exact e
    · exact h
  | begin now =>
    show Held (s.begin now)
    unfold Loop.begin
    split
    · rename_i hb
      refine held_goOn (s := { s with queued := false, stopped := s.stopped || final s.cached.status.phaseOr })
        (held_same h rfl rfl (Nat.le_refl _) (Or.inr rfl) (fun _ e => e)) ?_
      intro r e
      have fine := start_fine s.cached (s.seen now)
      rw [e] at fine
      have hc : r.c = s.cached := fine.1
      have hcd := held_cached hv h
      have hen := start_entry (c := s.cached) (seen := s.seen now) (by
        rcases hcd with c | c
        · right; rw [c]; exact ⟨rfl, rfl⟩
        · exact Or.inl c.1)
      rw [e] at hen
      rw [hc]
      refine ⟨hcd, fun p hp => absurd hp (hen.1 p), fun hp hf => ?_, fun ov => ?_⟩
      · rw [hen.2 hp] at hf; cases hf
      · have := (h.over ov).2.2.1
        rcases hcd with c | c
        · exfalso
          have e' : (s.server.latest :: s.server.older)[s.lag]? = some s.cached := by
            unfold Loop.cached
            rw [List.getElem?_eq_getElem (by simpa using Nat.lt_succ_of_lt this)]; rfl
          have := h.recorded _ _ this e'
          rw [c] at this; cases this.1
        · exact c.1
    · exact h
  | call out now => exact held_call hv h out now
  | fire =>
    show Held s.fire
    unfold Loop.fire
    split
    · exact held_same h rfl rfl (Nat.le_refl _) (Or.inl rfl) (fun _ e => e)
    · exact h
  | restart => exact held_same h rfl rfl (Nat.zero_le _) (Or.inr rfl) (fun _ e => e)

/-- C129, in part: if the stop comes after the controller has recorded the scheduler pod and the
credentials, then whenever the cluster is recorded as stopped or failed neither of them exists, however
the calls, failures and crashes interleave. Missing: a stop that comes earlier, see `C129_violated`. -/
theorem C129_nothing_left_partial (s : Loop) (h : Reach StopLate s)
    (ho : Over s.server.latest.status.phaseOr) :
    s.server.exist .pod = false ∧ s.server.exist .secret = false := by
  suffices hs : Held s from
    ⟨(hs.over ⟨_, List.mem_cons_self .., ho⟩).1, (hs.over ⟨_, List.mem_cons_self .., ho⟩).2.1⟩
  clear ho
  induction h with
  | init => exact held_init
  | step hr hp ih => exact held_step (reach_inv hr) ih _ hp

/-- Runs of steps are executions. -/
theorem reach_ops {P : Loop → Op → Prop} (hP : ∀ s op, P s op) (ops : List Op) (s : Loop)
    (h : Reach P s) : Reach P (ops.foldl Loop.step s) := by
  induction ops generalizing s with
  | nil => exact h
  | cons op ops ih => exact ih _ (.step h (hP _ _))

/-- A user stops a cluster while the controller creates its scheduler pod. No call fails. -/
private def early : List Op :=
  [.begin 0, .call .ok 0, .stop, .seeCluster 1, .call .ok 0, .call .ok 0,
   .begin 1, .call .ok 1, .seeCluster 2, .begin 2, .seePod 1]

/-- C129 does not hold in full: if a user stops a cluster while the controller creates its scheduler pod,
the pod and the credentials may stay, although no call fails: the cluster is recorded as stopped and
nothing is left to do. -/
theorem C129_violated : ¬ ∀ s : Loop, Reach Any s → Quiet s → Over s.server.latest.status.phaseOr →
    s.server.exist .pod = false ∧ s.server.exist .secret = false := by
  intro h
  have := h _ (reach_ops (fun _ _ => trivial) early _ .init)
    ⟨by decide, by decide, by decide, by decide, by decide, by decide⟩ (Or.inl (by decide))
  revert this
  decide

/-- A cluster that starts, runs, and is stopped by its user. -/
def life : List Op :=
  [.begin 0, .call .ok 0, .call .ok 0, .call .ok 0, .seeCluster 1, .begin 1, .podTurns .running, .seePod 2,
   .begin 2, .call .ok 2, .call .ok 2, .seeCluster 1, .begin 3, .endpointsTurn true, .seeReady 1, .begin 4,
   .call .ok 4, .call .ok 4, .call .ok 4, .seeCluster 1, .begin 5, .call .ok 5]

/-- It runs, with nothing left to do. -/
example : Quiet (life.foldl Loop.step .init) ∧
    (life.foldl Loop.step .init).server.latest.status.phaseOr = .running ∧
    Recorded (life.foldl Loop.step .init).server.latest :=
  ⟨⟨by decide, by decide, by decide, by decide, by decide, by decide⟩, by decide, by decide, by decide⟩

/-- The stop, which the controller carries out although the deletion of the credentials fails at
first. -/
def ending : List Op :=
  [.stop, .seeCluster 1, .begin 6, .call .ok 6, .call .failed 6, .seePod 2, .begin 7, .call .ok 7, .call .lost 7,
   .fire, .begin 8, .call .ok 8, .call .ok 8, .call .ok 8, .seeCluster 1, .begin 9, .fire, .begin 9]

/-- The hypotheses of `C128_stop` and `C129_nothing_left_partial` are met. -/
example : Reach StopLate ((life ++ ending).foldl Loop.step .init) ∧
    Quiet ((life ++ ending).foldl Loop.step .init) ∧
    ((life ++ ending).foldl Loop.step .init).server.latest.active = false ∧
    ((life ++ ending).foldl Loop.step .init).server.latest.status.phaseOr = .stopped := by
  refine ⟨?_, ⟨by decide, by decide, by decide, by decide, by decide, by decide⟩, by decide, by decide⟩
  have go : ∀ (ops : List Op) (s : Loop), (∀ op ∈ ops, op ≠ .stop) → Reach StopLate s →
      Reach StopLate (ops.foldl Loop.step s) := by
    intro ops
    induction ops with
    | nil => exact fun s _ h => h
    | cons op ops ih =>
      exact fun s hn h => ih _ (fun o ho => hn o (List.mem_cons_of_mem _ ho))
        (.step h (fun e => absurd e (hn op (List.mem_cons_self ..))))
  have h1 := go life .init (by decide) .init
  have h2 : Recorded (life.foldl Loop.step .init).server.latest := ⟨by decide, by decide⟩
  have e : ending = .stop :: ending.tail := rfl
  rw [List.foldl_append, e, List.foldl_cons]
  generalize life.foldl Loop.step .init = s at h1 h2
  exact go ending.tail _ (by decide) (.step (op := .stop) h1 (fun _ => h2))

end Verif.KubeLoop
