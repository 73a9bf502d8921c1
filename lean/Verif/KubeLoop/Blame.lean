import Verif.KubeLoop.Follow
/-! Property C130, first part: a cluster on Kubernetes fails only if its scheduler ended. -/
set_option linter.unusedSimpArgs false
set_option linter.unusedVariables false
namespace Verif.KubeLoop
open Verif.Kube

/-! ### Small facts -/

theorem cached_mem {s : Loop} (h : s.lag ≤ s.server.older.length) : s.cached ∈ s.versions := by
  unfold Loop.cached Loop.versions
  rw [List.getElem?_eq_getElem (by simpa using Nat.lt_succ_of_le h)]
  exact List.getElem_mem _

/-- A cleanup after a failure goes on as one. -/
theorem failing_after {r r' : Run} {new : Bool} {seen : Seen} (h : r.Failing)
    (e : r.after new seen = .call r') : r'.Failing := by
  obtain ⟨c, st, p⟩ := r
  rcases h with h | h | ⟨h, _⟩
  · cases (h : p = _)
    unfold Run.after cleanSecret conclude at e
    dsimp only at e
    split at e
    · cases e; exact Or.inr (Or.inl rfl)
    · split at e
      · cases e
      · cases e; exact Or.inr (Or.inr ⟨rfl, rfl⟩)
  · cases (h : p = _)
    unfold Run.after conclude at e
    dsimp only at e
    split at e
    · cases e
    · cases e; exact Or.inr (Or.inr ⟨rfl, rfl⟩)
  · cases (h : p = _)
    cases e

/-- A creation is by a reconciliation of an active cluster. -/
theorem creates_active {r : Run} (ok : RunOk r) {x : Res} (h : r.point.creates = some x) :
    r.c.active = true := by
  have hat := ok.point
  unfold Run.At at hat
  cases hp : r.point <;> rw [hp] at h hat <;> first | exact hat.1.1 | cases h

/-- The pod is created only if it is not recorded in the given version. -/
theorem creates_pod {r : Run} (ok : RunOk r) (h : r.point.creates = some .pod) :
    r.c.status.pod = false := by
  have hat := ok.point
  unfold Run.At at hat
  cases hp : r.point <;> rw [hp] at h hat <;> first | exact hat.2.1 | cases h

/-- The pod is deleted after a stop, or as it failed. -/
theorem deletes_pod {r : Run} (ok : RunOk r) (h : r.point.deletes = some .pod) :
    (r.c.active = false) ∨ (r.Failing ∧ (r.c.status.pod = true ∨ r.c.status.phaseOr = .running)) := by
  have hat := ok.point
  unfold Run.At at hat
  cases hp : r.point with
  | delPod p =>
    rw [hp] at hat
    rcases hat.2 with c | c | c
    · exact Or.inl c.1
    · refine Or.inr ⟨Or.inl ?_, Or.inl c.2.2.1⟩
      rw [hp, c.2.1]
    · refine Or.inr ⟨Or.inl ?_, Or.inr c.2.2.2.2⟩
      rw [hp, c.2.1]
  | _ => rw [hp] at h; cases h

/-- What is recorded stays so however the pod is called. -/
theorem lost_mono (s : Loop) (op : Op) (h : (s.step op).lost = false) : s.lost = false := by
  have hv : ∀ c, (s.version c).lost = s.lost := by
    intro c; rcases version_cases s c with ⟨_, e⟩ | ⟨_, e⟩ <;> rw [e]
  have he : ∀ r, (s.effect r).lost = s.lost := by
    intro r
    rcases effect_cases s r with ⟨x, _, e⟩ | ⟨x, _, e⟩ | ⟨_, e⟩ | ⟨_, e⟩ <;> rw [e]
    · unfold Loop.create; split
      · rfl
      · split <;> rfl
    · unfold Loop.delete; split
      · split <;> rfl
      · rfl
    · exact hv _
  have hg : ∀ (t : Loop) n, (t.goOn n).lost = t.lost := by intro t n; cases n <;> rfl
  cases op with
  | stop => rw [← hv]; exact h
  | seeCluster n => exact h
  | seePod n => exact h
  | seeReady n => exact h
  | endpointsTurn b => exact h
  | restart => exact h
  | podTurns x =>
    change (s.podTurns x).lost = false at h
    unfold Loop.podTurns at h
    split at h
    · exact (Bool.or_eq_false_iff.1 h).1
    · exact h
  | vanish x =>
    change (s.vanish x).lost = false at h
    unfold Loop.vanish at h
    split at h
    · exact (Bool.or_eq_false_iff.1 h).1
    · exact h
  | begin now =>
    change (s.begin now).lost = false at h
    unfold Loop.begin at h
    split at h
    · rw [hg] at h; exact h
    · exact h
  | call out now =>
    change (s.call out now).lost = false at h
    unfold Loop.call at h
    split at h
    · exact h
    · cases out <;> dsimp only at h <;> rw [hg] at h
      · rw [he] at h; exact h
      · rw [he] at h; exact h
      · exact h
  | fire =>
    change s.fire.lost = false at h
    unfold Loop.fire at h
    split at h <;> exact h

theorem effect_lost (s : Loop) (r : Run) : (s.effect r).lost = s.lost := by
  rcases effect_cases s r with ⟨x, _, e⟩ | ⟨x, _, e⟩ | ⟨_, e⟩ | ⟨_, e⟩ <;> rw [e]
  · unfold Loop.create; split
    · rfl
    · split <;> rfl
  · unfold Loop.delete; split
    · split <;> rfl
    · rfl
  · rcases version_cases s { s.server.latest with status := r.st } with ⟨_, e⟩ | ⟨_, e⟩ <;> rw [e]

/-! ### The invariant -/

/-- The pod was not deleted or ended. -/
def Mode.Fresh (k : Mode) : Prop := k = .before ∨ k = .alive

/-- What holds as long as the scheduler has not ended by itself. -/
private structure Safe (s : Loop) (m k : Mode) : Prop where
  track : Track s m k
  cached : s.cached.active = true → k.Fresh
  given : ∀ r, s.run = some r → r.c.active = true → k.Fresh
  running : (∃ c ∈ s.versions, c.status.phaseOr = .running) → m ≠ .before
  serving : ∀ r, s.run = some r → r.Serving → m ≠ .before
  failed : ∀ c ∈ s.versions, c.status.phaseOr ≠ .failed
  failing : ∀ r, s.run = some r → ¬ r.Failing
  pods : ∀ c ∈ s.versions, c.status.phaseOr = .running → c.status.pod = true
  order : s.versions.Pairwise (fun new old => old.active = false → new.active = false)
  inactive : ∀ r, s.run = some r → r.c.active = false → s.cached.active = false

private theorem safe_init : Safe .init .before .before := by
  refine ⟨⟨rfl, .nil, rfl⟩, fun _ => Or.inl rfl, fun r h => (by cases h), ?_, fun r h => (by cases h), ?_,
    fun r h => (by cases h), ?_, List.pairwise_singleton _ _, fun r h => (by cases h)⟩
  · rintro ⟨c, hc, h⟩
    rcases List.mem_cons.1 hc with rfl | hc
    · cases h
    · cases hc
  · intro c hc h
    rcases List.mem_cons.1 hc with rfl | hc
    · cases h
    · cases hc
  · intro c hc h
    rcases List.mem_cons.1 hc with rfl | hc
    · cases h
    · cases hc

/-- A step that leaves the cluster object alone, and the reconciliation or ends it. -/
private theorem safe_same {s t : Loop} {m k m' k' : Mode} (h : Safe s m k) (o : SameObject s t)
    (hr : t.run = s.run ∨ t.run = none) (ht : Track t m' k') (hm : Later m m')
    (hk : k.Fresh → k'.Fresh) : Safe t m' k' := by
  have hr' : ∀ r, t.run = some r → s.run = some r := by
    intro r e
    rcases hr with hr | hr
    · rw [← hr]; exact e
    · rw [hr] at e; cases e
  have hv : t.versions = s.versions := by unfold Loop.versions; rw [o.latest, o.older]
  refine ⟨ht, ?_, ?_, ?_, ?_, ?_, ?_, ?_, ?_, ?_⟩
  · rw [o.cached]; exact fun e => hk (h.cached e)
  · exact fun r e a => hk (h.given r (hr' r e) a)
  · rw [hv]; exact fun e => hm.notBefore (h.running e)
  · exact fun r e a => hm.notBefore (h.serving r (hr' r e) a)
  · rw [hv]; exact h.failed
  · exact fun r e => h.failing r (hr' r e)
  · rw [hv]; exact h.pods
  · rw [hv]; exact h.order
  · rw [o.cached]; exact fun r e => h.inactive r (hr' r e)

/-- The cache gets a later version. -/
private theorem safe_see {s : Loop} {m k : Mode} (hv : Inv s) (h : Safe s m k) (n : Nat) :
    Safe (s.seeCluster n) m k := by
  have mono : s.cached.active = false → (s.seeCluster n).cached.active = false := by
    intro e
    have hlt : s.lag < s.versions.length := by unfold Loop.versions; simpa using Nat.lt_succ_of_le hv.lag
    have e1 : s.cached = s.versions[s.lag] := by
      unfold Loop.cached
      show (s.versions[s.lag]?).getD _ = _
      rw [List.getElem?_eq_getElem hlt]; rfl
    have hlt' : s.lag - n < s.versions.length := Nat.lt_of_le_of_lt (Nat.sub_le _ _) hlt
    have e2 : (s.seeCluster n).cached = s.versions[s.lag - n] := by
      unfold Loop.cached
      show (s.versions[s.lag - n]?).getD _ = _
      rw [List.getElem?_eq_getElem hlt']; rfl
    rcases Nat.lt_or_eq_of_le (Nat.sub_le s.lag n) with hl | hl
    · rw [e2]
      refine List.pairwise_iff_getElem.1 h.order _ _ hlt' hlt hl ?_
      rw [← e1]; exact e
    · rw [e2]
      simp only [hl]
      rw [← e1]; exact e
  refine ⟨track_same h.track rfl rfl rfl, ?_, h.given, h.running, h.serving, h.failed, h.failing, h.pods,
    h.order, fun r e a => mono (h.inactive r e a)⟩
  intro e
  refine h.cached ?_
  cases hc : s.cached.active with
  | true => rfl
  | false => rw [mono hc] at e; cases e

/-- The cluster object gets a new version. -/
private theorem safe_version {s : Loop} {m k : Mode} (hv : Inv s) (h : Safe s m k) (c : KCluster)
    (h1 : c.status.phaseOr ≠ .failed) (h2 : c.status.phaseOr = .running → m ≠ .before ∧ c.status.pod = true)
    (h3 : s.server.latest.active = false → c.active = false) : Safe (s.version c) m k := by
  have hc := version_cached hv.lag c
  have hs := version_same s c
  rcases version_cases s c with ⟨_, e⟩ | ⟨_, e⟩
  · rw [e]; exact h
  · have hvs : (s.version c).versions = c :: s.versions := by rw [e]; rfl
    refine ⟨version_track h.track c, ?_, ?_, ?_, ?_, ?_, ?_, ?_, ?_, ?_⟩
    · rw [hc.1]; exact h.cached
    · rw [hs.run]; exact h.given
    · rw [hvs]
      rintro ⟨x, hx, hp⟩
      rcases List.mem_cons.1 hx with rfl | hx
      · exact (h2 hp).1
      · exact h.running ⟨x, hx, hp⟩
    · rw [hs.run]; exact h.serving
    · rw [hvs]
      intro x hx
      rcases List.mem_cons.1 hx with rfl | hx
      · exact h1
      · exact h.failed x hx
    · rw [hs.run]; exact h.failing
    · rw [hvs]
      intro x hx hp
      rcases List.mem_cons.1 hx with rfl | hx
      · exact (h2 hp).2
      · exact h.pods x hx hp
    · rw [hvs]
      refine List.pairwise_cons.2 ⟨fun o ho hi => h3 ?_, h.order⟩
      rcases List.mem_cons.1 ho with rfl | ho
      · exact hi
      · exact (List.pairwise_cons.1 h.order).1 o ho hi
    · rw [hs.run, hc.1]; exact h.inactive

/-- The status that is about to be written. -/
theorem written_phase {r : Run} (ok : RunOk r) (hp : r.point = .patch) :
    (r.st.phaseOr = .pending ∧ r.st.pod = true) ∨ (r.st.phaseOr = .running ∧ r.st.pod = true ∧ r.Serving) ∨
    (r.st.phaseOr = .failed ∧ r.Failing ∧ r.c.active = true) ∨
    (r.st.phaseOr = .stopped ∧ r.c.active = false) := by
  have hat := ok.point
  unfold Run.At at hat
  rw [hp] at hat
  obtain ⟨_, w | w | ⟨p, w, e⟩⟩ := hat
  · left
    refine ⟨?_, w.2.2.2.1⟩
    unfold KStatus.phaseOr; rw [w.2.2.2.2]; rfl
  · right; left
    refine ⟨?_, w.2.2.2.1, Or.inr (Or.inr (Or.inr ⟨hp, w.2.2.2.2.2⟩))⟩
    unfold KStatus.phaseOr; rw [w.2.2.2.2.2]; rfl
  · have e' : r.st.phaseOr = p := by unfold KStatus.phaseOr; rw [e]; rfl
    rcases w with w | w | w
    · exact Or.inr (Or.inr (Or.inr ⟨by rw [e', w.2.1], w.1⟩))
    · refine Or.inr (Or.inr (Or.inl ⟨by rw [e', w.2.1], ?_, w.1⟩))
      exact Or.inr (Or.inr ⟨hp, by rw [e, w.2.1]⟩)
    · refine Or.inr (Or.inr (Or.inl ⟨by rw [e', w.2.1], ?_, w.1⟩))
      exact Or.inr (Or.inr ⟨hp, by rw [e, w.2.1]⟩)

/-- A call takes effect. -/
private theorem safe_effect {s : Loop} {m k : Mode} (hv : Inv s) (h : Safe s m k) {r : Run}
    (hr : s.run = some r) :
    ∃ k', Safe (s.effect r) m k' := by
  have ok := hv.ok r hr
  rcases effect_cases s r with ⟨x, hx, e⟩ | ⟨x, hx, e⟩ | ⟨hx, e⟩ | ⟨hx, e⟩
  · have hf := h.given r hr (creates_active ok hx)
    obtain ⟨k', ht, hk⟩ := track_create h.track (by rcases hf with rfl | rfl <;> simp) x
    rw [e]
    refine ⟨k', safe_same h (create_object s x) (Or.inl (create_same s x).run) ht .same (fun f => ?_)⟩
    rcases hk with rfl | ⟨_, rfl⟩
    · exact f
    · exact Or.inr rfl
  · obtain ⟨k', ht, _, hk⟩ := track_delete h.track x
    rw [e]
    by_cases hkk : k' = k
    · subst hkk
      exact ⟨k', safe_same h (delete_object s x) (Or.inl (delete_same s x).run) ht .same id⟩
    · have := hk hkk
      subst this
      rcases deletes_pod ok hx with ha | ha
      · -- after a stop: nothing is active any more
        have hc := h.inactive r hr ha
        have o := delete_object s .pod
        have sm := delete_same s .pod
        refine ⟨k', ?_⟩
        have hvs : (s.delete .pod).versions = s.versions := by unfold Loop.versions; rw [o.latest, o.older]
        refine ⟨ht, ?_, ?_, ?_, ?_, ?_, ?_, ?_, ?_, ?_⟩
        · rw [o.cached, hc]; intro e; cases e
        · rw [sm.run, hr]; intro r' e' a; cases e'; rw [ha] at a; cases a
        · rw [hvs]; exact h.running
        · rw [sm.run]; exact h.serving
        · rw [hvs]; exact h.failed
        · rw [sm.run]; exact h.failing
        · rw [hvs]; exact h.pods
        · rw [hvs]; exact h.order
        · rw [sm.run, o.cached]; exact h.inactive
      · exact absurd ha.1 (h.failing r hr)
  · rw [e]
    refine ⟨k, safe_version hv h _ ?_ ?_ id⟩
    · show r.st.phaseOr ≠ .failed
      intro hf
      rcases written_phase ok hx with w | w | w | w
      · rw [w.1] at hf; cases hf
      · rw [w.1] at hf; cases hf
      · exact h.failing r hr w.2.1
      · rw [w.1] at hf; cases hf
    · intro hf
      change r.st.phaseOr = .running at hf
      rcases written_phase ok hx with w | w | w | w
      · rw [w.1] at hf; cases hf
      · exact ⟨h.serving r hr w.2.2, w.2.1⟩
      · rw [w.1] at hf; cases hf
      · rw [w.1] at hf; cases hf
  · rw [e]; exact ⟨k, h⟩

/-- The reconciliation goes on. -/
private theorem safe_goOn {s : Loop} {m k : Mode} (h : Safe { s with run := none } m k) {n : Next}
    (hn : ∀ r, n = .call r → (r.c.active = true → k.Fresh) ∧ (r.Serving → m ≠ .before) ∧ ¬ r.Failing ∧
      (r.c.active = false → s.cached.active = false)) : Safe (s.goOn n) m k := by
  cases n with
  | done => exact h
  | again => exact safe_same h ⟨rfl, rfl, rfl⟩ (Or.inl rfl) (track_same h.track rfl rfl rfl) .same id
  | call r =>
    obtain ⟨n1, n2, n3, n4⟩ := hn r rfl
    refine ⟨track_same h.track rfl rfl rfl, h.cached, ?_, h.running, ?_, h.failed, ?_, h.pods, h.order, ?_⟩
    · intro r' e; cases e; exact n1
    · intro r' e; cases e; exact n2
    · intro r' e; cases e; exact n3
    · intro r' e; cases e; exact n4

private theorem safe_end {s : Loop} {m k : Mode} (h : Safe s m k) (t : Bool) :
    Safe { s with run := none, timer := t } m k :=
  safe_same h ⟨rfl, rfl, rfl⟩ (Or.inr rfl) (track_same h.track rfl rfl rfl) .same id

private theorem shows_running {m : Mode} (h : m.Shows (some .running)) : m = .alive := by
  cases m with
  | alive => rfl
  | before => cases h
  | ended => cases h
  | after => cases h

theorem shows_terminated {m : Mode} (h : m.Shows (some .terminated)) : m = .ended := by
  cases m with
  | ended => rfl
  | before => cases h
  | alive => obtain ⟨y, e, n⟩ := h; cases e; exact absurd rfl n
  | after => cases h

theorem fresh_earlier {m k : Mode} (h : Later m k) (hk : k.Fresh) : m.Fresh := by
  rcases hk with rfl | rfl
  · cases h; exact Or.inl rfl
  · cases h
    · exact Or.inr rfl
    · exact Or.inl rfl

private theorem safe_step {s : Loop} {m k : Mode} (hv : Inv s) (h : Safe s m k) (op : Op)
    (hl : (s.step op).lost = false) : ∃ m' k', Safe (s.step op) m' k' := by
  cases op with
  | stop =>
    refine ⟨m, k, safe_version hv h _ ?_ ?_ (fun _ => rfl)⟩
    · exact h.failed s.server.latest (List.mem_cons_self ..)
    · intro hp
      exact ⟨h.running ⟨s.server.latest, List.mem_cons_self .., hp⟩,
        h.pods s.server.latest (List.mem_cons_self ..) hp⟩
  | seeCluster n => exact ⟨m, k, safe_see hv h n⟩
  | seePod n =>
    obtain ⟨j, ht, hj⟩ := track_see h.track n
    exact ⟨j, k, safe_same h ⟨rfl, rfl, rfl⟩ (Or.inl rfl) ht hj id⟩
  | seeReady n =>
    exact ⟨m, k, safe_same h ⟨rfl, rfl, rfl⟩ (Or.inl rfl) (track_same h.track rfl rfl rfl) .same id⟩
  | podTurns x =>
    obtain ⟨k', ht, _, hk, _⟩ := track_turns h.track x
    have e : k' = k := by
      apply Classical.byContradiction
      intro n
      have := hk n
      change (s.podTurns x).lost = false at hl
      rw [hl] at this; cases this
    subst e
    refine ⟨m, k', safe_same h ?_ ?_ ht .same id⟩
    · unfold Loop.step Loop.podTurns; dsimp only; split <;> exact ⟨rfl, rfl, rfl⟩
    · unfold Loop.step Loop.podTurns; dsimp only; split <;> exact Or.inl rfl
  | endpointsTurn b =>
    exact ⟨m, k, safe_same h ⟨rfl, rfl, rfl⟩ (Or.inl rfl) (track_same h.track rfl rfl rfl) .same id⟩
  | vanish x =>
    obtain ⟨k', ht, _, hk⟩ := track_vanish h.track x
    have e : k' = k := by
      apply Classical.byContradiction
      intro n
      have := (hk n).2
      change (s.vanish x).lost = false at hl
      rw [hl] at this; cases this
    subst e
    refine ⟨m, k', safe_same h ?_ ?_ ht .same id⟩
    · unfold Loop.step Loop.vanish; dsimp only; split <;> exact ⟨rfl, rfl, rfl⟩
    · unfold Loop.step Loop.vanish; dsimp only; split <;> exact Or.inl rfl
  | begin now =>
    show ∃ m' k', Safe (s.begin now) m' k'
    unfold Loop.begin
    split
    · rename_i hb
      refine ⟨m, k, safe_goOn (s := { s with queued := false, stopped := s.stopped || final s.cached.status.phaseOr })
        (safe_same h ⟨rfl, rfl, rfl⟩ (Or.inr rfl) (track_same h.track rfl rfl rfl) .same id) ?_⟩
      intro r e
      have fine := start_fine s.cached (s.seen now)
      rw [e] at fine
      obtain ⟨hc, ok, fs, ff⟩ := fine
      refine ⟨fun a => h.cached (by rw [← hc]; exact a), fun hs => ?_, fun hf => ?_, fun a => ?_⟩
      · have := h.track.seen
        rw [show s.podSeen = some .running from fs hs] at this
        rw [shows_running this]; simp
      · -- an active cluster, so the pod was not deleted
        have hact : r.c.active = true := by
          have hat := ok.point
          unfold Run.At at hat
          rcases hf with hf | hf | ⟨hf, hph⟩
          · rw [hf] at hat
            rcases hat.2 with c | c | c
            · cases c.2.1
            · exact c.1
            · exact c.1
          · rw [hf] at hat
            rcases hat.2 with c | c | c
            · cases c.2.1
            · exact c.1
            · exact c.1
          · rcases written_phase ok hf with w | w | w | w
            · have := w.1; unfold KStatus.phaseOr at this; rw [hph] at this; cases this
            · have := w.1; unfold KStatus.phaseOr at this; rw [hph] at this; cases this
            · exact w.2.2
            · have := w.1; unfold KStatus.phaseOr at this; rw [hph] at this; cases this
        have hk := h.cached (by rw [← hc]; exact hact)
        have hm := fresh_earlier h.track.news.later hk
        rcases ff hf with f | f | f
        · have := h.track.seen
          rw [show s.podSeen = some .terminated from f] at this
          rw [shows_terminated this] at hm
          rcases hm with e | e <;> cases e
        · have hb := h.running ⟨_, cached_mem hv.lag, f.1⟩
          have := h.track.seen
          rw [show s.podSeen = none from f.2] at this
          rcases hm with rfl | rfl
          · exact hb rfl
          · obtain ⟨y, e, _⟩ := this; cases e
        · have := h.pods _ (cached_mem hv.lag) f.1
          rw [f.2] at this; cases this
      · rw [hc] at a; exact a
    · exact ⟨m, k, h⟩
  | call out now =>
    show ∃ m' k', Safe (s.call out now) m' k'
    unfold Loop.call
    cases hr : s.run with
    | none => exact ⟨m, k, h⟩
    | some r =>
      obtain ⟨k', he⟩ := safe_effect hv h hr
      cases out with
      | failed => exact ⟨m, k, safe_end h true⟩
      | lost => exact ⟨m, k', safe_end he true⟩
      | ok =>
        refine ⟨m, k', safe_goOn (safe_end he _) ?_⟩
        intro r' e
        have ok := hv.ok r hr
        have fine := after_fine ok (s.isNew r) (s.seen now)
        rw [e] at fine
        obtain ⟨hc, ok', fs, ff⟩ := fine
        have hr' : (s.effect r).run = some r := by rw [(effect_same s r).run]; exact hr
        refine ⟨fun a => he.given r hr' (by rw [← hc]; exact a), fun hs => ?_, fun hf => ?_, fun a => ?_⟩
        · rcases fs hs with f | f
          · exact h.serving r hr f
          · have := h.track.seen
            rw [show s.podSeen = some .running from f] at this
            rw [shows_running this]; simp
        · rcases ff hf with f | f
          · exact h.failing r hr f
          · -- the pod was shown as ended
            have := h.track.seen
            rw [show s.podSeen = some .terminated from f] at this
            have hm := shows_terminated this
            subst hm
            have hk : ¬ k.Fresh := by
              intro hk
              rcases fresh_earlier h.track.news.later hk with e | e <;> cases e
            have hact : r'.c.active = true := by
              have hat := ok'.point
              unfold Run.At at hat
              rcases hf with hf | hf | ⟨hf, hph⟩
              · rw [hf] at hat
                rcases hat.2 with c | c | c
                · cases c.2.1
                · exact c.1
                · exact c.1
              · rw [hf] at hat
                rcases hat.2 with c | c | c
                · cases c.2.1
                · exact c.1
                · exact c.1
              · rcases written_phase ok' hf with w | w | w | w
                · have := w.1; unfold KStatus.phaseOr at this; rw [hph] at this; cases this
                · have := w.1; unfold KStatus.phaseOr at this; rw [hph] at this; cases this
                · exact w.2.2
                · have := w.1; unfold KStatus.phaseOr at this; rw [hph] at this; cases this
            exact hk (h.given r hr (by rw [← hc]; exact hact))
        · exact he.inactive r hr' (by rw [← hc]; exact a)
  | fire =>
    show ∃ m' k', Safe s.fire m' k'
    unfold Loop.fire
    split
    · exact ⟨m, k, safe_same h ⟨rfl, rfl, rfl⟩ (Or.inl rfl) (track_same h.track rfl rfl rfl) .same id⟩
    · exact ⟨m, k, h⟩
  | restart =>
    have h1 := safe_see hv h s.lag
    have e : (s.seeCluster s.lag).lag = 0 := Nat.sub_self _
    refine ⟨k, k, safe_same h1 ⟨rfl, rfl, e.symm⟩ (Or.inr rfl) (track_restart h.track) h.track.news.later id⟩

private theorem failed_lost (s : Loop) (h : Reach Any s) (c : KCluster)
    (hc : c ∈ s.server.latest :: s.server.older) (hf : c.status.phaseOr = .failed) : s.lost = true := by
  cases hl : s.lost with
  | true => rfl
  | false =>
    exfalso
    suffices hs : ∃ m k, Safe s m k by
      obtain ⟨m, k, hs⟩ := hs
      exact hs.failed c hc hf
    clear hc hf
    induction h with
    | init => exact ⟨_, _, safe_init⟩
    | step hr _ ih =>
      obtain ⟨m, k, hs⟩ := ih (lost_mono _ _ hl)
      exact safe_step (reach_inv hr) hs _ hl

/-- What `lost` stands for. -/
private theorem lost_step (s : Loop) (op : Op) (h : (s.step op).lost = true) :
    s.lost = true ∨ op = .podTurns .terminated ∨ op = .vanish .pod := by
  cases op with
  | podTurns x =>
    change (s.podTurns x).lost = true at h
    unfold Loop.podTurns at h
    split at h
    · rcases Bool.or_eq_true_iff.1 h with h | h
      · exact Or.inl h
      · have := of_decide_eq_true h
        subst this; exact Or.inr (Or.inl rfl)
    · exact Or.inl h
  | vanish x =>
    change (s.vanish x).lost = true at h
    unfold Loop.vanish at h
    split at h
    · rcases Bool.or_eq_true_iff.1 h with h | h
      · exact Or.inl h
      · have := of_decide_eq_true h
        subst this; exact Or.inr (Or.inr rfl)
    · exact Or.inl h
  | stop =>
    left
    change (s.version _).lost = true at h
    rcases version_cases s { s.server.latest with active := false } with ⟨_, e⟩ | ⟨_, e⟩ <;> rw [e] at h <;> exact h
  | seeCluster n => exact Or.inl h
  | seePod n => exact Or.inl h
  | seeReady n => exact Or.inl h
  | endpointsTurn b => exact Or.inl h
  | restart => exact Or.inl h
  | begin now =>
    left
    change (s.begin now).lost = true at h
    unfold Loop.begin at h
    split at h
    · generalize start s.cached (s.seen now) = n at h
      cases n <;> exact h
    · exact h
  | call out now =>
    left
    change (s.call out now).lost = true at h
    unfold Loop.call at h
    split at h
    · exact h
    · rename_i r _
      cases out <;> dsimp only at h
      · generalize r.after (s.isNew r) (s.seen now) = n at h
        have : (s.effect r).lost = true := by cases n <;> exact h
        rw [effect_lost] at this; exact this
      · have : (s.effect r).lost = true := h
        rw [effect_lost] at this; exact this
      · exact h
  | fire =>
    left
    change s.fire.lost = true at h
    unfold Loop.fire at h
    split at h <;> exact h

/-- C130: a cluster is recorded as failed only if its scheduler pod ended by itself or was deleted by
others before, whatever requests, failures of calls and crashes of the controller there were. -/
theorem C130_failed (ops : List Op) (c : KCluster)
    (hc : c ∈ (ops.foldl Loop.step .init).server.latest :: (ops.foldl Loop.step .init).server.older)
    (hf : c.status.phaseOr = .failed) : .podTurns .terminated ∈ ops ∨ .vanish .pod ∈ ops := by
  have hl := failed_lost _ (reach_ops (P := Any) (fun _ _ => trivial) ops .init .init) c hc hf
  clear hc hf
  have go : ∀ (ops : List Op) (s : Loop), (ops.foldl Loop.step s).lost = true →
      s.lost = true ∨ .podTurns .terminated ∈ ops ∨ .vanish .pod ∈ ops := by
    intro ops
    induction ops with
    | nil => exact fun s h => Or.inl h
    | cons op ops ih =>
      intro s h
      rcases ih _ h with h | h | h
      · rcases lost_step s op h with h | h | h
        · exact Or.inl h
        · exact Or.inr (Or.inl (by rw [h]; exact List.mem_cons_self ..))
        · exact Or.inr (Or.inr (by rw [h]; exact List.mem_cons_self ..))
      · exact Or.inr (Or.inl (List.mem_cons_of_mem _ h))
      · exact Or.inr (Or.inr (List.mem_cons_of_mem _ h))
  rcases go ops .init hl with h | h
  · cases h
  · exact h

/-- The scheduler of a running cluster ends. -/
def breakdown : List Op :=
  [.podTurns .terminated, .seePod 1, .begin 6, .call .ok 6, .call .ok 6, .call .ok 6]

/-- The cluster fails. -/
example : ((life ++ breakdown).foldl Loop.step .init).server.latest.status.phaseOr = .failed := by decide

end Verif.KubeLoop
