import Verif.KubeLoop.Blame
/-! Property C130, second part: when nothing is left to do, the recorded phase of a cluster on Kubernetes is
that of its scheduler. -/
set_option linter.unusedSimpArgs false
set_option linter.unusedVariables false
namespace Verif.KubeLoop
open Verif.Kube

/-! ### How a reconciliation starts -/

/-- The next call is not the scaling of the workers. -/
private def NoScale : Next → Prop
  | .call r => r.point ≠ .scale
  | _ => True

private theorem conclude_noScale (c : KCluster) (st : KStatus) : NoScale (conclude c st) := by
  unfold conclude; split
  · trivial
  · exact fun h => (by cases h)

private theorem cleanSecret_noScale (c : KCluster) (st : KStatus) (p : Phase) (seen : Seen) :
    NoScale (cleanSecret c st p seen) := by
  unfold cleanSecret; split
  · exact fun h => (by cases h)
  · exact conclude_noScale _ _

private theorem clean_noScale (c : KCluster) (st : KStatus) (p : Phase) (seen : Seen) :
    NoScale (clean c st p seen) := by
  unfold clean; split
  · exact fun h => (by cases h)
  · exact cleanSecret_noScale _ _ _ _

private theorem lookTcp_noScale (c : KCluster) (st : KStatus) : NoScale (lookTcp c st) := by
  unfold lookTcp; split
  · exact conclude_noScale _ _
  · exact fun h => (by cases h)

private theorem lookEndpoints_noScale (c : KCluster) (st : KStatus) (seen : Seen) :
    NoScale (lookEndpoints c st seen) := by
  unfold lookEndpoints lookRoute
  split
  · split
    · exact lookTcp_noScale _ _
    · exact fun h => (by cases h)
  · exact conclude_noScale _ _

private theorem withPod_noScale (c : KCluster) (st : KStatus) (pod : Option ContainerState) (seen : Seen) :
    NoScale (withPod c st pod seen) := by
  unfold withPod lookService
  split
  · split
    · exact lookEndpoints_noScale _ _ _
    · exact fun h => (by cases h)
  · exact clean_noScale _ _ _ _
  · exact conclude_noScale _ _

private theorem lookPod_noScale (c : KCluster) (st : KStatus) (seen : Seen) :
    NoScale (lookPod c st seen) := by
  unfold lookPod; split
  · exact withPod_noScale _ _ _ _
  · exact fun h => (by cases h)

private theorem after_noScale (r : Run) (new : Bool) (seen : Seen) : NoScale (r.after new seen) := by
  unfold Run.after
  split
  · exact lookPod_noScale _ _ _
  · exact withPod_noScale _ _ _ _
  · exact lookEndpoints_noScale _ _ _
  · exact lookTcp_noScale _ _
  · exact conclude_noScale _ _
  · exact cleanSecret_noScale _ _ _ _
  · exact conclude_noScale _ _
  · exact conclude_noScale _ _
  · trivial

/-- Workers are scaled only if the scheduler is seen running. -/
private theorem start_scale {c : KCluster} {seen : Seen} {r : Run} (h : start c seen = .call r)
    (hp : r.point = .scale) : seen.pod = some .running := by
  have no : ∀ n, NoScale n → n = .call r → False := by
    intro n hn e
    rw [e] at hn; exact hn hp
  unfold start at h
  split at h
  · cases h
  · cases h
  · split at h
    · refine (no _ ?_ h).elim
      unfold startPending
      dsimp only
      split
      · exact lookPod_noScale _ _ _
      · exact fun h => (by cases h)
    · exact (no _ (clean_noScale _ _ _ _) h).elim
  · split at h
    · unfold startRunning at h
      split at h
      · exact (no _ (clean_noScale _ _ _ _) h).elim
      · rename_i hx
        split at hx
        · cases hs : seen.pod with
          | none => rw [hs] at hx; cases hx
          | some x => rw [hs] at hx; cases hx; rfl
        · cases hx
      · exact (no _ (conclude_noScale _ _) h).elim
    · exact (no _ (clean_noScale _ _ _ _) h).elim
  · split at h
    · cases h
    · exact (no _ (clean_noScale _ _ _ _) h).elim

/-- The object records the pod and the credentials, and a phase of an active cluster. -/
private structure Full (c : KCluster) : Prop where
  pod : c.status.pod = true
  secret : c.status.secret = true
  phase : c.status.phase = some .pending ∨ c.status.phase = some .running ∨ c.status.phase = some .failed

/-- If the scheduler has ended, there is nothing to do but to fail. -/
private theorem start_dead {c : KCluster} {seen : Seen} {r : Run} (hf : Full c) (ha : c.active = true)
    (hs : seen.pod = none ∨ seen.pod = some .terminated) (h : start c seen = .call r) : r.Failing := by
  have hclean : ∀ st : KStatus, st.pod = true → clean c st .failed seen = .call ⟨c, st, .delPod .failed⟩ := by
    intro st e; unfold clean; rw [if_pos e]
  obtain ⟨hp, hsec, hph⟩ := hf
  unfold start at h
  rcases hph with e | e | e
  · have e' : c.status.phaseOr = .pending := by unfold KStatus.phaseOr; rw [e]; rfl
    rw [e'] at h
    dsimp only at h
    rw [if_pos ha] at h
    have hst : { c.status with phase := some c.status.phaseOr } = c.status := by
      rw [e', ← e]
    unfold startPending at h
    dsimp only at h
    rw [if_pos hsec, hst] at h
    unfold lookPod at h
    rw [if_pos hp] at h
    rcases hs with hs | hs
    · rw [hs] at h
      change conclude c c.status = .call r at h
      unfold conclude at h
      rw [if_pos rfl] at h; cases h
    · rw [hs] at h
      change clean c c.status .failed seen = .call r at h
      rw [hclean _ hp] at h
      cases h
      exact Or.inl rfl
  · have e' : c.status.phaseOr = .running := by unfold KStatus.phaseOr; rw [e]; rfl
    rw [e'] at h
    dsimp only at h
    rw [if_pos ha] at h
    unfold startRunning at h
    rw [if_pos hp] at h
    have : seen.pod.getD .terminated = .terminated := by rcases hs with hs | hs <;> rw [hs] <;> rfl
    rw [this] at h
    dsimp only at h
    rw [hclean _ hp] at h
    cases h
    exact Or.inl rfl
  · have e' : c.status.phaseOr = .failed := by unfold KStatus.phaseOr; rw [e]; rfl
    rw [e'] at h; cases h

/-! ### The invariant -/

/-- The controller has seen that the pod is recorded, so it creates none any more. -/
private def Sealed (s : Loop) : Prop :=
  s.lag < s.server.older.length ∧ ∀ r, s.run = some r → r.c ≠ Server.init.latest

/-- A version in which the cluster failed. -/
private def HasFailed (s : Loop) : Prop := ∃ c ∈ s.versions, c.status.phaseOr = .failed

/-- What is in order as far as the cluster object, the pod and the reconciliation are concerned. -/
private structure Good (s : Loop) (m k : Mode) : Prop where
  track : Track s m k
  actives : ∀ c ∈ s.versions, c.active = true
  first : s.versions[s.server.older.length]? = some Server.init.latest
  full : ∀ i c, i < s.server.older.length → s.versions[i]? = some c → Full c
  given : ∀ r, s.run = some r → r.c = Server.init.latest ∨ (Full r.c ∧ s.lag < s.server.older.length)
  ga : ∀ r, s.run = some r → r.c.active = true
  notYet : ¬ Sealed s → k ≠ .after
  running : (∃ c ∈ s.versions, c.status.phaseOr = .running) → m ≠ .before
  serving : ∀ r, s.run = some r → r.Serving → m ≠ .before
  failed : HasFailed s → (m = .ended ∨ m = .after) ∧ s.lag < s.server.older.length ∧
    s.server.latest.status.phaseOr = .failed ∧ ∀ r, s.run = some r → r.Failing
  failing : ∀ r, s.run = some r → r.Failing → m = .ended ∨ m = .after
  stopped : s.stopped = true → HasFailed s

/-- and what is in order as far as wake-ups are concerned. -/
private structure Woken (s : Loop) : Prop where
  scale : ∀ r, s.run = some r → r.point = .scale → s.queued = false →
    s.podSeen ≠ none ∧ s.podSeen ≠ some .terminated
  idle : s.run = none → s.queued = false → s.timer = false → s.lag = 0 →
    Idle s.cached s.podSeen s.readySeen

private theorem full_not_init : ¬ Full Server.init.latest := fun h => by cases h.pod

private theorem good_cached {s : Loop} {m k : Mode} (hv : Inv s) (h : Good s m k) :
    s.cached = Server.init.latest ∨ (Full s.cached ∧ s.lag < s.server.older.length) := by
  rcases Nat.lt_or_eq_of_le hv.lag with hl | hl
  · right
    refine ⟨?_, hl⟩
    refine h.full _ _ hl ?_
    unfold Loop.cached
    show s.versions[s.lag]? = _
    rw [show (s.server.latest :: s.server.older) = s.versions from rfl]
    rw [List.getElem?_eq_getElem (by unfold Loop.versions; simpa using Nat.lt_succ_of_lt hl)]; rfl
  · left
    unfold Loop.cached
    rw [show (s.server.latest :: s.server.older) = s.versions from rfl]
    rw [hl, h.first]; rfl

private theorem good_mem {s : Loop} {m k : Mode} (h : Good s m k) {c : KCluster} (hc : c ∈ s.versions) :
    c = Server.init.latest ∨ Full c := by
  obtain ⟨i, hi, e⟩ := List.getElem_of_mem hc
  have hi' : i < s.server.older.length + 1 := by unfold Loop.versions at hi; simpa using hi
  rcases Nat.lt_or_eq_of_le (Nat.le_of_lt_succ hi') with hl | hl
  · right
    exact h.full i c hl (by rw [List.getElem?_eq_getElem hi, e])
  · left
    have := h.first
    rw [← hl, List.getElem?_eq_getElem hi, e] at this
    exact Option.some.inj this

private theorem good_init : Good .init .before .before := by
  have single : ∀ c ∈ Loop.init.versions, c = Server.init.latest := by
    intro c hc
    rcases List.mem_cons.1 hc with rfl | hc
    · rfl
    · cases hc
  refine ⟨⟨rfl, .nil, rfl⟩, ?_, rfl, fun i c h => (by cases h), fun r h => (by cases h), fun r h => (by cases h),
    fun _ => (by simp), ?_, fun r h => (by cases h), ?_, fun r h => (by cases h), fun h => (by cases h)⟩
  · intro c hc; rw [single c hc]; rfl
  · rintro ⟨c, hc, h⟩; rw [single c hc] at h; cases h
  · rintro ⟨c, hc, h⟩; rw [single c hc] at h; cases h

private theorem woken_init : Woken .init :=
  ⟨fun r h => (by cases h), fun _ h => (by cases h)⟩

/-- A step that leaves the cluster object alone, and the reconciliation or ends it. -/
private theorem good_same {s t : Loop} {m k m' k' : Mode} (h : Good s m k) (e1 : t.server.latest = s.server.latest)
    (e2 : t.server.older = s.server.older) (hl : t.lag ≤ s.lag)
    (hr : t.run = s.run ∨ t.run = none) (hst : t.stopped = s.stopped ∨ t.stopped = false)
    (ht : Track t m' k') (hm : Later m m')
    (hk : k' = .after → k = .after ∨ Sealed s) : Good t m' k' := by
  have hr' : ∀ r, t.run = some r → s.run = some r := by
    intro r e
    rcases hr with hr | hr
    · rw [← hr]; exact e
    · rw [hr] at e; cases e
  have hv : t.versions = s.versions := by unfold Loop.versions; rw [e1, e2]
  have hseal : Sealed s → Sealed t := by
    rintro ⟨a, b⟩
    exact ⟨by rw [e2]; exact Nat.lt_of_le_of_lt hl a, fun r e => b r (hr' r e)⟩
  have hhf : HasFailed t → HasFailed s := by
    rintro ⟨c, hc, hp⟩
    exact ⟨c, by rw [← hv]; exact hc, hp⟩
  refine ⟨ht, ?_, ?_, ?_, ?_, ?_, ?_, ?_, ?_, ?_, ?_, ?_⟩
  · rw [hv]; exact h.actives
  · rw [hv, e2]; exact h.first
  · rw [hv, e2]; exact h.full
  · intro r e
    rw [e2]
    rcases h.given r (hr' r e) with g | g
    · exact Or.inl g
    · exact Or.inr ⟨g.1, Nat.lt_of_le_of_lt hl g.2⟩
  · exact fun r e => h.ga r (hr' r e)
  · intro ns e
    have ns' : ¬ Sealed s := fun x => ns (hseal x)
    rcases hk e with e' | e'
    · exact h.notYet ns' e'
    · exact ns' e'
  · rw [hv]; exact fun e => hm.notBefore (h.running e)
  · exact fun r e a => hm.notBefore (h.serving r (hr' r e) a)
  · intro hf
    obtain ⟨f1, f2, f3, f4⟩ := h.failed (hhf hf)
    exact ⟨hm.over f1, by rw [e2]; exact Nat.lt_of_le_of_lt hl f2, by rw [e1]; exact f3, fun r e => f4 r (hr' r e)⟩
  · exact fun r e a => hm.over (h.failing r (hr' r e) a)
  · intro e
    rcases hst with hst | hst
    · obtain ⟨c, hc, hp⟩ := h.stopped (by rw [← hst]; exact e)
      exact ⟨c, by rw [hv]; exact hc, hp⟩
    · rw [hst] at e; cases e

/-- What a reconciliation writes. -/
private theorem good_written {s : Loop} {m k : Mode} (hv : Inv s) (h : Good s m k) {r : Run}
    (hr : s.run = some r) (hp : r.point = .patch) (ha : s.server.latest.active = true) :
    Full { s.server.latest with status := r.st } := by
  have ok := hv.ok r hr
  have hact := h.ga r hr
  have hat := ok.point
  unfold Run.At at hat
  rw [hp] at hat
  obtain ⟨_, w | w | ⟨p, w, e⟩⟩ := hat
  · exact ⟨w.2.2.2.1, w.2.2.1, Or.inl w.2.2.2.2⟩
  · exact ⟨w.2.2.2.1, w.2.2.1, Or.inr (Or.inl w.2.2.2.2.2)⟩
  · rcases w with w | w | w
    · rw [hact] at w; cases w.1
    · exact ⟨w.2.2.2.1, w.2.2.2.2.2, Or.inr (Or.inr (by rw [← w.2.1]; exact e))⟩
    · have hfull : Full r.c := by
        rcases h.given r hr with g | g
        · rw [g] at w; cases w.2.2.2.2
        · exact g.1
      exact ⟨by show r.st.pod = true; rw [w.2.2.1]; exact hfull.pod,
        by show r.st.secret = true; rw [w.2.2.2.1]; exact hfull.secret, Or.inr (Or.inr (by rw [← w.2.1]; exact e))⟩

/-- A reconciliation that fails is not of the first version. -/
private theorem failing_given {s : Loop} {m k : Mode} (hv : Inv s) (h : Good s m k) {r : Run}
    (hr : s.run = some r) (hf : r.Failing) : Full r.c ∧ s.lag < s.server.older.length := by
  rcases h.given r hr with g | g
  · exfalso
    have ok := hv.ok r hr
    have hat := ok.point
    unfold Run.At at hat
    have clean : ∀ p, p = .failed → r.Clean p → False := by
      intro p hp c
      rcases c with c | c | c
      · rw [hp] at c; cases c.2.1
      · rw [g] at c; cases c.2.2.1
      · rw [g] at c; cases c.2.2.2.2
    rcases hf with hf | hf | ⟨hf, hph⟩
    · rw [hf] at hat; exact clean _ rfl hat.2
    · rw [hf] at hat; exact clean _ rfl hat.2
    · rw [hf] at hat
      obtain ⟨_, w | w | ⟨p, w, e⟩⟩ := hat
      · rw [hph] at w; cases w.2.2.2.2
      · rw [hph] at w; cases w.2.2.2.2.2
      · rw [hph] at e
        exact clean p (Option.some.inj e).symm w
  · exact g

/-- The status is written. -/
private theorem good_patch {s : Loop} {m k : Mode} (hv : Inv s) (h : Good s m k) {r : Run}
    (hr : s.run = some r) (hp : r.point = .patch) (ha : s.server.latest.active = true) :
    Good (s.version { s.server.latest with status := r.st }) m k := by
  have hs := version_same s { s.server.latest with status := r.st }
  have hw := good_written hv h hr hp ha
  have hph := written_phase (hv.ok r hr) hp
  have ht := version_track h.track { s.server.latest with status := r.st }
  generalize hc : ({ s.server.latest with status := r.st } : KCluster) = c at hs hw ht ⊢
  have hcs : c.status = r.st := by rw [← hc]
  have hca : c.active = true := by rw [← hc]; exact ha
  rcases version_cases s c with ⟨_, e⟩ | ⟨_, e⟩
  · rw [e]; exact h
  · have hvs : (s.version c).versions = c :: s.versions := by rw [e]; rfl
    have hol : (s.version c).server.older.length = s.server.older.length + 1 := by rw [e]; rfl
    have hlg : (s.version c).lag = s.lag + 1 := by rw [e]
    have hlt : (s.version c).server.latest = c := by rw [e]
    have sealed : Sealed s → Sealed (s.version c) := by
      rintro ⟨a, b⟩
      exact ⟨by rw [hol, hlg]; exact Nat.succ_lt_succ a, by rw [hs.run]; exact b⟩
    refine ⟨ht, ?_, ?_, ?_, ?_, ?_, ?_, ?_, ?_, ?_, ?_, ?_⟩
    · rw [hvs]
      intro x hx
      rcases List.mem_cons.1 hx with rfl | hx
      · exact hca
      · exact h.actives x hx
    · rw [hvs, hol, List.getElem?_cons_succ]; exact h.first
    · rw [hvs, hol]
      intro i x hi hx
      cases i with
      | zero => rw [List.getElem?_cons_zero] at hx; cases hx; exact hw
      | succ i =>
        rw [List.getElem?_cons_succ] at hx
        exact h.full i x (Nat.lt_of_succ_lt_succ hi) hx
    · intro r' e'
      rw [hs.run] at e'
      rw [hol, hlg]
      rcases h.given r' e' with g | g
      · exact Or.inl g
      · exact Or.inr ⟨g.1, Nat.succ_lt_succ g.2⟩
    · rw [hs.run]; exact h.ga
    · exact fun ns => h.notYet (fun x => ns (sealed x))
    · rw [hvs]
      rintro ⟨x, hx, hp'⟩
      rcases List.mem_cons.1 hx with rfl | hx
      · rw [hcs] at hp'
        rcases hph with w | w | w | w
        · rw [w.1] at hp'; cases hp'
        · exact h.serving r hr w.2.2
        · rw [w.1] at hp'; cases hp'
        · rw [w.1] at hp'; cases hp'
      · exact h.running ⟨x, hx, hp'⟩
    · rw [hs.run]; exact h.serving
    · intro hf
      have key : r.Failing := by
        obtain ⟨x, hx, hp'⟩ := hf
        rw [hvs] at hx
        rcases List.mem_cons.1 hx with rfl | hx
        · rw [hcs] at hp'
          rcases hph with w | w | w | w
          · rw [w.1] at hp'; cases hp'
          · rw [w.1] at hp'; cases hp'
          · exact w.2.1
          · rw [w.1] at hp'; cases hp'
        · exact (h.failed ⟨x, hx, hp'⟩).2.2.2 r hr
      refine ⟨h.failing r hr key, ?_, ?_, ?_⟩
      · rw [hol, hlg]; exact Nat.succ_lt_succ (failing_given hv h hr key).2
      · rw [hlt, hcs]
        rcases key with q | q | ⟨_, q⟩
        · rw [hp] at q; cases q
        · rw [hp] at q; cases q
        · unfold KStatus.phaseOr; rw [q]; rfl
      · intro r' e'
        rw [hs.run, hr] at e'; cases e'; exact key
    · rw [hs.run]; exact h.failing
    · intro e'
      rw [hs.stopped] at e'
      obtain ⟨x, hx, hp'⟩ := h.stopped e'
      exact ⟨x, by rw [hvs]; exact List.mem_cons_of_mem _ hx, hp'⟩

/-- A call takes effect. -/
private theorem good_effect {s : Loop} {m k : Mode} (hv : Inv s) (h : Good s m k) {r : Run}
    (hr : s.run = some r) (ha : s.server.latest.active = true) :
    ∃ k', Good (s.effect r) m k' := by
  have ok := hv.ok r hr
  rcases effect_cases s r with ⟨x, hx, e⟩ | ⟨x, hx, e⟩ | ⟨hx, e⟩ | ⟨hx, e⟩
  · rw [e]
    have o := create_object s x
    have sm := create_same s x
    by_cases hxp : x = .pod
    · subst hxp
      have hpod := creates_pod ok hx
      have hns : ¬ Sealed s := by
        rintro ⟨_, b⟩
        rcases h.given r hr with g | g
        · exact b r hr g
        · rw [g.1.pod] at hpod; cases hpod
      obtain ⟨k', ht, hk⟩ := track_create h.track (h.notYet hns) .pod
      refine ⟨k', good_same h o.latest o.older (Nat.le_of_eq o.lag) (Or.inl sm.run) (Or.inl sm.stopped) ht .same
        (fun e => ?_)⟩
      rcases hk with rfl | ⟨_, rfl⟩
      · exact Or.inl e
      · cases e
    · exact ⟨k, good_same h o.latest o.older (Nat.le_of_eq o.lag) (Or.inl sm.run) (Or.inl sm.stopped)
        (track_create_other h.track hxp) .same Or.inl⟩
  · rw [e]
    have o := delete_object s x
    have sm := delete_same s x
    obtain ⟨k', ht, _, hk⟩ := track_delete h.track x
    refine ⟨k', good_same h o.latest o.older (Nat.le_of_eq o.lag) (Or.inl sm.run) (Or.inl sm.stopped) ht .same
      (fun e => ?_)⟩
    by_cases hkk : k' = k
    · rw [← hkk]; exact Or.inl e
    · right
      have := hk hkk
      subst this
      rcases deletes_pod ok hx with hd | hd
      · rw [h.ga r hr] at hd; cases hd
      · have g := failing_given hv h hr hd.1
        refine ⟨g.2, fun r' e' => ?_⟩
        rw [hr] at e'; cases e'
        intro hi
        exact full_not_init (hi ▸ g.1)
  · rw [e]; exact ⟨k, good_patch hv h hr hx ha⟩
  · rw [e]; exact ⟨k, h⟩

/-- The reconciliation goes on. -/
private theorem good_goOn {s : Loop} {m k : Mode} (h : Good { s with run := none } m k) {n : Next}
    (hn : ∀ r, n = .call r →
      (r.c = Server.init.latest ∨ (Full r.c ∧ s.lag < s.server.older.length)) ∧ r.c.active = true ∧
      (r.c = Server.init.latest → k ≠ .after) ∧ (r.Serving → m ≠ .before) ∧
      (r.Failing → m = .ended ∨ m = .after) ∧ (HasFailed s → r.Failing)) : Good (s.goOn n) m k := by
  cases n with
  | done => exact h
  | again =>
    exact good_same h rfl rfl (Nat.le_refl _) (Or.inl rfl) (Or.inl rfl) (track_same h.track rfl rfl rfl) .same
      Or.inl
  | call r =>
    obtain ⟨n1, n2, n3, n4, n5, n6⟩ := hn r rfl
    refine ⟨track_same h.track rfl rfl rfl, h.actives, h.first, h.full, ?_, ?_, ?_, h.running, ?_, ?_, ?_, h.stopped⟩
    · intro r' e; cases e; exact n1
    · intro r' e; cases e; exact n2
    · intro ns
      by_cases hi : r.c = Server.init.latest
      · exact n3 hi
      · refine h.notYet (fun x => ns ⟨x.1, fun r' e => ?_⟩)
        cases e; exact hi
    · intro r' e; cases e; exact n4
    · intro hf
      obtain ⟨f1, f2, f3, _⟩ := h.failed hf
      exact ⟨f1, f2, f3, fun r' e => (by cases e; exact n6 hf)⟩
    · intro r' e; cases e; exact n5

private theorem good_end {s : Loop} {m k : Mode} (h : Good s m k) (t : Bool) :
    Good { s with run := none, timer := t } m k :=
  good_same h rfl rfl (Nat.le_refl _) (Or.inr rfl) (Or.inl rfl) (track_same h.track rfl rfl rfl) .same Or.inl

private theorem shows_over {m : Mode} {x : Option ContainerState} (h : m.Shows x)
    (hm : m = .ended ∨ m = .after) : x = none ∨ x = some .terminated := by
  rcases hm with rfl | rfl
  · exact Or.inr h
  · exact Or.inl h

private theorem shows_running {m : Mode} (h : m.Shows (some .running)) : m ≠ .before := by
  rintro rfl; cases h

/-- After the status was written there is a change to be shown. -/
theorem patch_lag {s : Loop} (hv : Inv s) {r : Run} (hr : s.run = some r) (hp : r.point = .patch)
    (hq : s.queued = false) : (s.effect r).lag ≠ 0 := by
  intro l
  have ok := hv.ok r hr
  have w := ok.point
  unfold Run.At at w
  rw [hp] at w
  have e : s.effect r = s.version { s.server.latest with status := r.st } := by
    rcases effect_cases s r with ⟨x, e, _⟩ | ⟨x, e, _⟩ | ⟨_, e⟩ | ⟨e, _⟩
    · rw [hp] at e; cases e
    · rw [hp] at e; cases e
    · exact e
    · rw [hp] at e; cases e
  rw [e] at l
  rcases version_cases s { s.server.latest with status := r.st } with ⟨e1, e2⟩ | ⟨_, e2⟩
  · rw [e2] at l
    have : r.st = s.server.latest.status := by rw [← e1]
    refine w.1 ?_
    rw [this, hv.fresh r hr hq, cached_zero l]
  · rw [e2] at l; cases l

private theorem full_failed {c : KCluster} (h : Full c ∨ c = Server.init.latest)
    (hf : final c.status.phaseOr = true) : c.status.phaseOr = .failed := by
  rcases h with h | h
  · have := h.phase
    unfold KStatus.phaseOr at hf ⊢
    rcases this with e | e | e
    · rw [e] at hf; cases hf
    · rw [e] at hf; cases hf
    · rw [e]; rfl
  · rw [h] at hf; cases hf

/-- If a wake-up was suppressed, the cluster has failed. -/
private theorem idle_stopped {s : Loop} {m k : Mode} (h : Good s m k) (hst : s.stopped = true)
    (hl : s.lag = 0) (pod : Option ContainerState) (ready : Bool) : Idle s.cached pod ready := by
  left
  rw [cached_zero hl, (h.failed (h.stopped hst)).2.2.1]
  decide

/-- A wake-up that did not come. -/
private theorem no_wake {s : Loop} {new : Option ContainerState} {q : Bool}
    (h : (q || (wakes s.podSeen new && !s.stopped)) = false) :
    q = false ∧ (s.stopped = true ∨ (new ≠ some .running ∧ new ≠ some .terminated ∧
      (new = none → s.podSeen = none))) := by
  obtain ⟨h1, h2⟩ := Bool.or_eq_false_iff.1 h
  refine ⟨h1, ?_⟩
  cases hs : s.stopped with
  | true => exact Or.inl rfl
  | false =>
    right
    rw [hs] at h2
    simp only [Bool.not_false, Bool.and_true] at h2
    refine ⟨?_, ?_, ?_⟩
    · rintro rfl; cases h2
    · rintro rfl; cases h2
    · rintro rfl
      cases hp : s.podSeen with
      | none => rfl
      | some x => rw [hp] at h2; cases h2

private theorem step_good {s : Loop} {m k : Mode} (hv : Inv s) (h : Good s m k) (w : Woken s) (op : Op)
    (hp : LateVanish s op) (ha : s.server.latest.active = true) (hns : op ≠ .stop) :
    (∃ m' k', Good (s.step op) m' k') ∧ Woken (s.step op) := by
  cases op with
  | stop => exact absurd rfl hns
  | seeCluster n =>
    refine ⟨⟨m, k, good_same h rfl rfl (Nat.sub_le _ _) (Or.inl rfl) (Or.inl rfl) (track_same h.track rfl rfl rfl)
      .same Or.inl⟩, fun r _ _ q => (by cases q), fun _ q => (by cases q)⟩
  | seePod n =>
    obtain ⟨j, ht, hj⟩ := track_see h.track n
    refine ⟨⟨j, k, good_same h rfl rfl (Nat.le_refl _) (Or.inl rfl) (Or.inl rfl) ht hj Or.inl⟩, ?_, ?_⟩
    · intro r e hsc q
      obtain ⟨q', q''⟩ := no_wake q
      rcases q'' with st | ⟨_, q2, q3⟩
      · have := (h.failed (h.stopped st)).2.2.2 r e
        rcases this with f | f | ⟨f, _⟩ <;> rw [hsc] at f <;> cases f
      · exact ⟨fun e' => (w.scale r e hsc q').1 (q3 e'), q2⟩
    · intro e q t l
      obtain ⟨q', q''⟩ := no_wake q
      rcases q'' with st | ⟨q1, q2, q3⟩
      · exact idle_stopped h st l _ _
      · rcases w.idle e q' t l with i | i | i
        · exact Or.inl i
        · exact Or.inr (Or.inl ⟨i.1, i.2.1, i.2.2.1, i.2.2.2.1, q2, fun e' => absurd e' q1⟩)
        · exact Or.inr (Or.inr ⟨i.1, i.2.1, i.2.2.1, q2, fun e' => i.2.2.2.2 (q3 e')⟩)
  | seeReady n =>
    refine ⟨⟨m, k, good_same h rfl rfl (Nat.le_refl _) (Or.inl rfl) (Or.inl rfl) (track_same h.track rfl rfl rfl)
      .same Or.inl⟩, ?_, ?_⟩
    · intro r e hsc q
      exact w.scale r e hsc (Bool.or_eq_false_iff.1 q).1
    · intro e q t l
      obtain ⟨q1, q2⟩ := Bool.or_eq_false_iff.1 q
      cases hst : s.stopped with
      | true => exact idle_stopped h hst l _ _
      | false =>
        rw [hst] at q2
        simp only [Bool.not_false, Bool.and_true] at q2
        rcases w.idle e q1 t l with i | i | i
        · exact Or.inl i
        · exact Or.inr (Or.inl ⟨i.1, i.2.1, i.2.2.1, i.2.2.2.1, i.2.2.2.2.1, fun _ => q2⟩)
        · exact Or.inr (Or.inr i)
  | podTurns x =>
    obtain ⟨k', ht, _, _, hk⟩ := track_turns h.track x
    change (∃ m' k', Good (s.podTurns x) m' k') ∧ Woken (s.podTurns x)
    revert ht
    unfold Loop.podTurns
    split
    · intro ht
      exact ⟨⟨m, k', good_same h rfl rfl (Nat.le_refl _) (Or.inl rfl) (Or.inl rfl) ht .same (fun e => Or.inl (hk e))⟩,
        w.scale, w.idle⟩
    · intro _; exact ⟨⟨m, k, h⟩, w⟩
  | endpointsTurn b =>
    exact ⟨⟨m, k, good_same h rfl rfl (Nat.le_refl _) (Or.inl rfl) (Or.inl rfl) (track_same h.track rfl rfl rfl)
      .same Or.inl⟩, w.scale, w.idle⟩
  | vanish x =>
    obtain ⟨k', ht, _, hk⟩ := track_vanish h.track x
    have hsealed : k' = .after → k = .after ∨ Sealed s := by
      intro e
      by_cases hkk : k' = k
      · rw [← hkk]; exact Or.inl e
      · right
        obtain ⟨e', _⟩ := hk hkk
        subst e'
        obtain ⟨p1, p2⟩ := hp rfl
        constructor
        · rcases good_cached hv h with c | c
          · rw [c] at p1; cases p1
          · exact c.2
        · intro r e e'
          have := p2 r e
          rw [e'] at this; cases this
    change (∃ m' k', Good (s.vanish x) m' k') ∧ Woken (s.vanish x)
    revert ht
    unfold Loop.vanish
    split
    · intro ht
      exact ⟨⟨m, k', good_same h rfl rfl (Nat.le_refl _) (Or.inl rfl) (Or.inl rfl) ht .same hsealed⟩,
        w.scale, w.idle⟩
    · intro _; exact ⟨⟨m, k, h⟩, w⟩
  | begin now =>
    change (∃ m' k', Good (s.begin now) m' k') ∧ Woken (s.begin now)
    unfold Loop.begin
    split
    · rename_i hb
      have hcd := good_cached hv h
      have hmem := cached_mem hv.lag
      have hact := h.actives _ hmem
      have base : Good { s with queued := false, stopped := s.stopped || final s.cached.status.phaseOr, run := none }
          m k := by
        have b := good_same h (t := { s with queued := false, run := none }) rfl rfl (Nat.le_refl _) (Or.inr rfl)
          (Or.inl rfl) (track_same h.track rfl rfl rfl) .same Or.inl
        refine ⟨track_same h.track rfl rfl rfl, b.actives, b.first, b.full, b.given, b.ga, b.notYet, b.running,
          b.serving, b.failed, b.failing, ?_⟩
        intro e
        rcases Bool.or_eq_true_iff.1 e with e | e
        · exact h.stopped e
        · exact ⟨s.cached, hmem, full_failed (good_mem h hmem).symm e⟩
      have fine := start_fine s.cached (s.seen now)
      constructor
      · refine ⟨m, k, good_goOn
          (s := { s with queued := false, stopped := s.stopped || final s.cached.status.phaseOr }) base ?_⟩
        intro r e
        rw [e] at fine
        obtain ⟨hc, ok, fs, ff⟩ := fine
        rw [hc]
        refine ⟨hcd, hact, fun hi => ?_, fun hs => ?_, fun hf => ?_, fun hf => ?_⟩
        · refine h.notYet (fun x => ?_)
          rcases hcd with c | c
          · have hl := x.1
            have := h.full _ s.cached hl (by
              unfold Loop.cached
              rw [show (s.server.latest :: s.server.older) = s.versions from rfl]
              rw [List.getElem?_eq_getElem (by unfold Loop.versions; simpa using Nat.lt_succ_of_lt hl)]; rfl)
            rw [c] at this; exact full_not_init this
          · exact full_not_init (hi ▸ c.1)
        · have := h.track.seen
          rw [show s.podSeen = some .running from fs hs] at this
          exact shows_running this
        · rcases ff hf with f | f | f
          · have := h.track.seen
            rw [show s.podSeen = some .terminated from f] at this
            exact Or.inl (shows_terminated this)
          · have hb' := h.running ⟨_, hmem, f.1⟩
            have := h.track.seen
            rw [show s.podSeen = none from f.2] at this
            revert this hb'
            cases m with
            | before => intro n; exact absurd rfl n
            | alive => rintro _ ⟨y, e, _⟩; cases e
            | ended => intro _ e; cases e
            | after => intro _ _; exact Or.inr rfl
          · exfalso
            rcases hcd with c | c
            · rw [c] at f; cases f.1
            · rw [c.1.pod] at f; cases f.2
        · have f := h.failed hf
          have hfull : Full s.cached := by
            rcases hcd with c | c
            · have hl := f.2.1
              exact h.full _ s.cached hl (by
                unfold Loop.cached
                rw [show (s.server.latest :: s.server.older) = s.versions from rfl]
                rw [List.getElem?_eq_getElem (by unfold Loop.versions; simpa using Nat.lt_succ_of_lt hl)]; rfl)
            · exact c.1
          exact start_dead hfull hact (shows_over h.track.seen f.1) e
      · cases hn : start s.cached (s.seen now) with
        | call r =>
          refine ⟨?_, fun e => (by cases e)⟩
          intro r' e hsc _
          cases e
          have := start_scale hn hsc
          change s.podSeen ≠ none ∧ s.podSeen ≠ some .terminated
          rw [show s.podSeen = some .running from this]
          exact ⟨by simp, by simp⟩
        | done =>
          rw [hn] at fine
          exact ⟨fun r e => (by cases e), fun _ _ _ _ => fine⟩
        | again => exact ⟨fun r e => (by cases e), fun _ _ t => (by cases t)⟩
    · exact ⟨⟨m, k, h⟩, w⟩
  | call out now =>
    change (∃ m' k', Good (s.call out now) m' k') ∧ Woken (s.call out now)
    unfold Loop.call
    cases hr : s.run with
    | none => exact ⟨⟨m, k, h⟩, w⟩
    | some r =>
      obtain ⟨k', he⟩ := good_effect hv h hr ha
      have ended : ∀ t : Loop, Woken { t with run := none, timer := true } :=
        fun t => ⟨fun r e => (by cases e), fun _ _ t => (by cases t)⟩
      cases out with
      | failed => exact ⟨⟨m, k, good_end h true⟩, ended s⟩
      | lost => exact ⟨⟨m, k', good_end he true⟩, ended (s.effect r)⟩
      | ok =>
        dsimp only
        have ok := hv.ok r hr
        have sm := effect_same s r
        have hr' : (s.effect r).run = some r := by rw [sm.run]; exact hr
        have fine := after_fine ok (s.isNew r) (s.seen now)
        constructor
        · refine ⟨m, k', good_goOn (good_end he _) ?_⟩
          intro r' e
          rw [e] at fine
          obtain ⟨hc, ok', fs, ff⟩ := fine
          rw [hc]
          refine ⟨he.given r hr', h.ga r hr, fun hi => ?_, fun hs => ?_, fun hf => ?_, fun hf => ?_⟩
          · exact he.notYet (fun x => x.2 r hr' hi)
          · rcases fs hs with f | f
            · exact h.serving r hr f
            · have := h.track.seen
              rw [show s.podSeen = some .running from f] at this
              exact shows_running this
          · rcases ff hf with f | f
            · exact h.failing r hr f
            · have := h.track.seen
              rw [show s.podSeen = some .terminated from f] at this
              exact Or.inl (shows_terminated this)
          · exact failing_after ((he.failed hf).2.2.2 r hr') e
        · have hno := after_noScale r (s.isNew r) (s.seen now)
          cases hn : r.after (s.isNew r) (s.seen now) with
          | call r' =>
            rw [hn] at hno
            refine ⟨?_, fun e => (by cases e)⟩
            intro r'' e hsc
            cases e
            exact absurd hsc hno
          | again => exact ended _
          | done =>
            rw [hn] at fine
            refine ⟨fun r e => (by cases e), fun _ q t l => ?_⟩
            change (s.effect r).queued = false at q
            rw [sm.queued] at q
            change Idle (s.effect r).cached (s.effect r).podSeen (s.effect r).readySeen
            rw [sm.podSeen, sm.readySeen, (effect_cached hv.lag r).1, ← hv.fresh r hr q]
            rcases fine with f | f
            · have hat := ok.point
              unfold Run.At at hat
              rw [f] at hat
              have ws := w.scale r hr f q
              exact Or.inr (Or.inr ⟨hat.1, hat.2.1, hat.2.2.2, ws.2, ws.1⟩)
            · exact absurd l (patch_lag hv hr f q)
  | fire =>
    change (∃ m' k', Good s.fire m' k') ∧ Woken s.fire
    unfold Loop.fire
    split
    · exact ⟨⟨m, k, good_same h rfl rfl (Nat.le_refl _) (Or.inl rfl) (Or.inl rfl) (track_same h.track rfl rfl rfl)
        .same Or.inl⟩, fun r _ _ q => (by cases q), fun _ q => (by cases q)⟩
    · exact ⟨⟨m, k, h⟩, w⟩
  | restart =>
    exact ⟨⟨k, k, good_same h rfl rfl (Nat.zero_le _) (Or.inr rfl) (Or.inr rfl) (track_restart h.track)
      h.track.news.later Or.inl⟩, fun r e => (by cases e), fun _ q => (by cases q)⟩

/-- The cluster is not active again once it was stopped. -/
private theorem active_mono (s : Loop) (op : Op) (h : (s.step op).server.latest.active = true) :
    s.server.latest.active = true ∧ op ≠ .stop := by
  have hver : ∀ (c : KCluster), (s.version c).server.latest = c := by
    intro c; rcases version_cases s c with ⟨e1, e⟩ | ⟨_, e⟩ <;> rw [e]
    exact e1.symm
  have heff : ∀ r, (s.effect r).server.latest.active = s.server.latest.active := by
    intro r
    rcases effect_cases s r with ⟨x, _, e⟩ | ⟨x, _, e⟩ | ⟨_, e⟩ | ⟨_, e⟩ <;> rw [e]
    · rw [(create_object s x).latest]
    · rw [(delete_object s x).latest]
    · rw [hver]
  have hgo : ∀ (t : Loop) n, (t.goOn n).server = t.server := by intro t n; cases n <;> rfl
  cases op with
  | stop =>
    exfalso
    change (s.version _).server.latest.active = true at h
    rw [hver] at h; cases h
  | seeCluster n => exact ⟨h, by simp⟩
  | seePod n => exact ⟨h, by simp⟩
  | seeReady n => exact ⟨h, by simp⟩
  | endpointsTurn b => exact ⟨h, by simp⟩
  | restart => exact ⟨h, by simp⟩
  | podTurns x =>
    refine ⟨?_, by simp⟩
    change (s.podTurns x).server.latest.active = true at h
    unfold Loop.podTurns at h
    split at h <;> exact h
  | vanish x =>
    refine ⟨?_, by simp⟩
    change (s.vanish x).server.latest.active = true at h
    unfold Loop.vanish at h
    split at h <;> exact h
  | begin now =>
    refine ⟨?_, by simp⟩
    change (s.begin now).server.latest.active = true at h
    unfold Loop.begin at h
    split at h
    · rw [hgo] at h; exact h
    · exact h
  | call out now =>
    refine ⟨?_, by simp⟩
    change (s.call out now).server.latest.active = true at h
    unfold Loop.call at h
    split at h
    · exact h
    · cases out <;> dsimp only at h <;> rw [hgo] at h
      · rw [heff] at h; exact h
      · rw [heff] at h; exact h
      · exact h
  | fire =>
    refine ⟨?_, by simp⟩
    change s.fire.server.latest.active = true at h
    unfold Loop.fire at h
    split at h <;> exact h

private theorem getLast_split {α : Type} (l : List α) (n : Nat) (x : α) :
    (l.drop n).getLast?.getD ((l.take n).getLast?.getD x) = l.getLast?.getD x := by
  conv => rhs; rw [← List.take_append_drop n l]
  rw [List.getLast?_append]
  cases (l.drop n).getLast? <;> rfl

/-- When all changes are shown, the pod is shown as it is. -/
private theorem latest_step (s : Loop) (op : Op) (h : s.podLatest = s.pod) :
    (s.step op).podLatest = (s.step op).pod := by
  have same : ∀ t : Loop, t.podSeen = s.podSeen → t.podNews = s.podNews → t.pod = s.pod →
      t.podLatest = t.pod := by
    intro t a b c; unfold Loop.podLatest; rw [a, b, c]; exact h
  have ver : ∀ c, (s.version c).podLatest = (s.version c).pod := by
    intro c
    rcases version_cases s c with ⟨_, e⟩ | ⟨_, e⟩ <;> rw [e]
    · exact h
    · exact same _ rfl rfl rfl
  have snoc : ∀ (l : List (Option ContainerState)) (a x : Option ContainerState),
      (l ++ [a]).getLast?.getD x = a := by intro l a x; rw [List.getLast?_append]; rfl
  have eff : ∀ r, (s.effect r).podLatest = (s.effect r).pod := by
    intro r
    rcases effect_cases s r with ⟨x, _, e⟩ | ⟨x, _, e⟩ | ⟨_, e⟩ | ⟨_, e⟩ <;> rw [e]
    · unfold Loop.create
      by_cases h1 : s.server.exist x = true
      · rw [if_pos h1]; exact h
      · rw [if_neg h1]
        by_cases h2 : x = .pod
        · rw [if_pos h2, pod_some rfl]
          exact snoc _ _ _
        · rw [if_neg h2]
          refine same _ rfl rfl ?_
          exact pod_eq (setExist_other h2) rfl
    · unfold Loop.delete
      by_cases h1 : s.server.exist x = true
      · rw [if_pos h1]
        by_cases h2 : x = .pod
        · rw [if_pos h2, pod_none rfl]
          show (s.podNews ++ ([some ContainerState.terminated] ++ [none])).getLast?.getD _ = _
          rw [← List.append_assoc]
          exact snoc _ _ _
        · rw [if_neg h2]
          refine same _ rfl rfl ?_
          exact pod_eq (setExist_other h2) rfl
      · rw [if_neg h1]; exact h
    · exact ver _
    · exact h
  have go : ∀ (t : Loop) n, t.podLatest = t.pod → (t.goOn n).podLatest = (t.goOn n).pod := by
    intro t n ht; cases n <;> exact ht
  cases op with
  | stop => exact ver _
  | seeCluster n => exact h
  | seePod n =>
    show (s.podNews.drop n).getLast?.getD ((s.podNews.take n).getLast?.getD s.podSeen) = s.pod
    rw [getLast_split]; exact h
  | seeReady n => exact h
  | endpointsTurn b => exact h
  | restart => exact h
  | podTurns x =>
    change (s.podTurns x).podLatest = (s.podTurns x).pod
    unfold Loop.podTurns
    split
    · rename_i hx
      rw [pod_some (by exact hx.1)]
      exact snoc _ _ _
    · exact h
  | vanish x =>
    change (s.vanish x).podLatest = (s.vanish x).pod
    unfold Loop.vanish
    by_cases h1 : s.server.exist x = true
    · rw [if_pos h1]
      by_cases h2 : x = .pod
      · subst h2
        rw [pod_none rfl]
        exact snoc _ _ _
      · refine same _ rfl ?_ ?_
        · exact if_neg h2
        · exact pod_eq (setExist_other h2) rfl
    · rw [if_neg h1]; exact h
  | begin now =>
    change (s.begin now).podLatest = (s.begin now).pod
    unfold Loop.begin
    split
    · exact go _ _ h
    · exact h
  | call out now =>
    change (s.call out now).podLatest = (s.call out now).pod
    unfold Loop.call
    split
    · exact h
    · cases out <;> dsimp only
      · exact go _ _ (eff _)
      · exact go _ _ (eff _)
      · exact go _ _ h
  | fire =>
    change s.fire.podLatest = s.fire.pod
    unfold Loop.fire
    split <;> exact h

/-- C130, in part: whatever requests, changes, failures of calls and crashes of the controller there were
and however they interleaved: when nothing is left to do for a cluster that was not stopped, it is recorded
as running if its scheduler runs and is ready, as failed if its scheduler ended, and as running or failed
only if the scheduler is there, or not. This is if the scheduler pod is deleted by others only after the
controller has seen that it is recorded. Missing: a pod that is deleted while the cluster is pending, see
`C130_violated`. -/
theorem C130_follows_partial (s : Loop) (h : Reach LateVanish s) (hq : Quiet s)
    (ha : s.server.latest.active = true) :
    (s.pod = some .running → s.readyLatest = true → s.server.latest.status.phaseOr = .running) ∧
    (s.pod = some .terminated → s.server.latest.status.phaseOr = .failed) ∧
    (s.server.latest.status.phaseOr = .running → s.pod ≠ none ∧ s.pod ≠ some .terminated) ∧
    (s.server.latest.status.phaseOr = .failed → s.pod = none ∨ s.pod = some .terminated) := by
  have key : (∃ m k, Good s m k) ∧ Woken s ∧ s.podLatest = s.pod := by
    clear hq
    induction h with
    | init => exact ⟨⟨_, _, good_init⟩, woken_init, rfl⟩
    | @step s op hr hp ih =>
      obtain ⟨ha', hns⟩ := active_mono _ _ ha
      obtain ⟨⟨m, k, hg⟩, hw, hpl⟩ := ih ha'
      obtain ⟨h1, h2⟩ := step_good (reach_inv hr) hg hw op hp ha' hns
      exact ⟨h1, h2, latest_step _ _ hpl⟩
  obtain ⟨⟨m, k, hg⟩, hw, hpl⟩ := key
  have hidle := hw.idle hq.run hq.queue hq.timer hq.cluster
  rw [cached_zero hq.cluster] at hidle
  have hps : s.podSeen = s.pod := by rw [← hpl]; unfold Loop.podLatest; rw [hq.pod]; rfl
  have hrs : s.readySeen = s.readyLatest := by unfold Loop.readyLatest; rw [hq.ready]; rfl
  have hfin : final s.server.latest.status.phaseOr = true → s.server.latest.status.phaseOr = .failed :=
    full_failed (good_mem hg (List.mem_cons_self ..)).symm
  have hfp : s.server.latest.status.phaseOr = .failed → s.pod = none ∨ s.pod = some .terminated := by
    intro e
    have f := hg.failed ⟨_, List.mem_cons_self .., e⟩
    rw [← hps]
    exact shows_over hg.track.seen f.1
  rw [hps, hrs] at hidle
  refine ⟨?_, ?_, ?_, hfp⟩
  · intro hp hr
    rcases hidle with i | i | i
    · rcases hfp (hfin i) with e | e <;> rw [hp] at e <;> cases e
    · rw [i.2.2.2.2.2 hp] at hr; cases hr
    · exact i.2.1
  · intro hp
    rcases hidle with i | i | i
    · exact hfin i
    · exact absurd hp i.2.2.2.2.1
    · exact absurd hp i.2.2.2.1
  · intro hp
    rcases hidle with i | i | i
    · have := hfin i; rw [hp] at this; cases this
    · rw [hp] at i; cases i.2.1
    · exact ⟨i.2.2.2.2, i.2.2.2.1⟩

/-- Runs of steps in which others delete nothing. -/
private theorem reach_kept (ops : List Op) (s : Loop) (hn : ∀ op ∈ ops, op ≠ .vanish .pod)
    (h : Reach LateVanish s) : Reach LateVanish (ops.foldl Loop.step s) := by
  induction ops generalizing s with
  | nil => exact h
  | cons op ops ih =>
    exact ih _ (fun o ho => hn o (List.mem_cons_of_mem _ ho))
      (.step h (fun e => absurd e (hn op (List.mem_cons_self ..))))

/-- A scheduler pod starts. -/
private def starting : List Op :=
  [.begin 0, .call .ok 0, .call .ok 0, .call .ok 0, .seeCluster 1, .begin 1, .seePod 1]

/-- It is deleted before it runs. -/
private def removed : List Op := [.vanish .pod, .seePod 1, .begin 2]

/-- C130 does not hold in full: if the scheduler pod of a pending cluster is deleted, the cluster stays
pending: the controller takes it for a pod that it has not seen yet. No call fails, and nothing is left to
do. -/
theorem C130_violated : ¬ ∀ s : Loop, Reach LateVanish s → Quiet s → s.server.latest.active = true →
    s.pod = none → s.server.latest.status.phaseOr = .failed := by
  intro h
  have h1 := reach_kept starting .init (by decide) .init
  have h2 : (starting.foldl Loop.step .init).cached.status.pod = true := by decide
  have h3 : (starting.foldl Loop.step .init).run = none := by decide
  have hr : Reach LateVanish ((starting ++ removed).foldl Loop.step .init) := by
    have e : removed = .vanish .pod :: removed.tail := rfl
    rw [List.foldl_append, e, List.foldl_cons]
    generalize starting.foldl Loop.step .init = s at h1 h2 h3
    refine reach_kept removed.tail _ (by decide) (.step (op := .vanish .pod) h1 (fun _ => ⟨h2, fun r e => ?_⟩))
    rw [h3] at e; cases e
  have := h _ hr ⟨by decide, by decide, by decide, by decide, by decide, by decide⟩ (by decide) (by decide)
  revert this
  decide

/-- A cluster fails, and the controller learns of it. -/
private def failing : List Op := life ++ breakdown ++ ([.seeCluster 1, .seePod 2, .begin 7] : List Op)

/-- The hypotheses of `C130_follows_partial` are met: a cluster runs, with nothing left to do, and one
whose scheduler ended. -/
example : (Reach LateVanish (life.foldl Loop.step .init) ∧ Quiet (life.foldl Loop.step .init) ∧
    (life.foldl Loop.step .init).server.latest.active = true ∧
    (life.foldl Loop.step .init).pod = some .running ∧ (life.foldl Loop.step .init).readyLatest = true) ∧
    (Reach LateVanish (failing.foldl Loop.step .init) ∧
    Quiet (failing.foldl Loop.step .init) ∧
    (failing.foldl Loop.step .init).server.latest.active = true ∧
    (failing.foldl Loop.step .init).server.latest.status.phaseOr
      = .failed) :=
  ⟨⟨reach_kept _ _ (by decide) .init, ⟨by decide, by decide, by decide, by decide, by decide, by decide⟩,
    by decide, by decide, by decide⟩,
   ⟨reach_kept _ _ (by decide) .init, ⟨by decide, by decide, by decide, by decide, by decide, by decide⟩,
    by decide, by decide⟩⟩

end Verif.KubeLoop
