import Verif.Yarn.Inv
import Verif.Router.Lemmas2
/-
The steps of clusters on YARN keep what holds.
-/
set_option linter.unusedSimpArgs false
set_option linter.unusedVariables false
namespace Verif.Yarn

theorem inv_start {own : Nat → Nat} {w : World} (h : Inv own w) (c : Nat) : Inv own (w.start c) := by
  unfold World.start
  by_cases hs : w.stat c = .created
  · rw [if_pos hs]
    refine inv_call (inv_stat h c .starting ?_ (fun _ _ _ _ _ => rfl)) _ ?_
    · intro hc
      unfold Settled at hc
      rw [hs] at hc
      rcases hc with e | e | e <;> cases e
    · exact ⟨fun _ => upd_same _ _ _, fun a e => (by cases e)⟩
  · rw [if_neg hs]; exact h

/-- Nobody waits for a submission of a cluster that is not starting. -/
theorem not_waited {own : Nat → Nat} {w : World} (h : Inv own w) {n : Nat} (hn : w.stat n ≠ .starting) {P : Prop} :
    ∀ i c, w.calls i = some c → c.kind = .submit n → c.waited = true → P :=
  fun i c hi hk hw => absurd (submit_starting h hi hk hw) hn

theorem inv_mark {own : Nat → Nat} {w : World} (h : Inv own w) (c : Nat) : Inv own (w.mark c) := by
  unfold World.mark
  by_cases hs : w.stat c = .recorded
  · rw [if_pos hs]
    exact inv_stat h c .submitted (fun _ => Or.inl rfl) (not_waited h (by rw [hs]; intro e; cases e))
  · rw [if_neg hs]; exact h

theorem getClient_rest (w : World) (c : Nat) :
    (w.getClient c).2.stat = w.stat ∧ (w.getClient c).2.appOf = w.appOf ∧ (w.getClient c).2.apps = w.apps ∧
    (w.getClient c).2.conts = w.conts ∧ (w.getClient c).2.contOf = w.contOf ∧ (w.getClient c).2.calls = w.calls ∧
    (w.getClient c).2.wstat = w.wstat := by
  obtain ⟨cs, as, e, _⟩ := getClient_shape w c
  rw [e]
  exact ⟨rfl, rfl, rfl, rfl, rfl, rfl, rfl⟩

theorem good_getClient {w : World} (c : Nat) {d : Nat} {cl : Client} (g : Good w d cl) : Good (w.getClient c).2 d cl := by
  obtain ⟨cs, as, e, _⟩ := getClient_shape w c
  rw [e]
  exact g

theorem inv_startWorker {own : Nat → Nat} {w : World} (h : Inv own w) (k : Nat) : Inv own (w.startWorker own k) := by
  unfold World.startWorker
  by_cases hs : w.stat (own k) = .submitted ∧ w.wstat k = .created
  · rw [if_pos hs]
    have hset : Settled w (own k) := Or.inl hs.1
    have hi := inv_getClient h hset
    cases hg : w.getClient (own k) with
    | mk o w' =>
      rw [hg] at hi
      cases o with
      | none => exact inv_wstat hi _
      | some cl =>
        refine inv_call (inv_wstat hi _) _ ?_
        have := good_getClient (own k) (getClient_good h hset (cl := cl) (by rw [hg]))
        rw [hg] at this
        exact ⟨this, fun t e => (by cases e)⟩
  · rw [if_neg hs]; exact h

theorem inv_stopWorker {own : Nat → Nat} {w : World} (h : Inv own w) (k : Nat) : Inv own (w.stopWorker own k) := by
  unfold World.stopWorker
  by_cases hs : w.stat (own k) = .submitted ∧ w.wstat k = .submitted
  · rw [if_pos hs]
    cases ht : w.contOf k with
    | none => exact inv_wstat h _
    | some t =>
      dsimp only
      have hset : Settled w (own k) := Or.inl hs.1
      have hi := inv_getClient h hset
      have hr := (getClient_rest w (own k)).2.2.2.1
      cases hg : w.getClient (own k) with
      | mk o w' =>
        rw [hg] at hi hr
        cases o with
        | none => exact inv_wstat hi _
        | some cl =>
          refine inv_call (inv_wstat hi _) _ ?_
          have := good_getClient (own k) (getClient_good h hset (cl := cl) (by rw [hg]))
          rw [hg] at this
          refine ⟨this, ?_⟩
          show ∃ x, w'.conts t = some x ∧ x.worker = k
          have hr' : w'.conts = w.conts := hr
          rw [hr']
          exact h.contOf k t ht
  · rw [if_neg hs]; exact h

theorem inv_check {own : Nat → Nat} {w : World} (h : Inv own w) (c : Nat) : Inv own (w.check c) := by
  unfold World.check
  by_cases hs : w.stat c = .submitted ∨ w.stat c = .stopping ∨ w.stat c = .stopped
  · rw [if_pos hs]; exact inv_getClient h hs
  · rw [if_neg hs]; exact h

theorem inv_stop {own : Nat → Nat} {w : World} (h : Inv own w) (c : Nat) : Inv own (w.stop c) := by
  unfold World.stop
  by_cases hs : w.stat c = .created ∨ w.stat c = .submitted
  · rw [if_pos hs]
    have hn : w.stat c ≠ .starting := by rcases hs with e | e <;> rw [e] <;> intro e <;> cases e
    cases ha : w.appOf c with
    | none => exact inv_stat h c .stopped (fun _ => Or.inr (Or.inr rfl)) (not_waited h hn)
    | some a =>
      refine inv_call (inv_stat h c .stopping (fun _ => Or.inr (Or.inl rfl)) (not_waited h hn)) _ ?_
      exact ⟨Or.inr (Or.inl (upd_same _ _ _)), ha, fun r e => (by cases e)⟩
  · rw [if_neg hs]; exact h

theorem inv_fail {own : Nat → Nat} {w : World} (h : Inv own w) (i : Nat) : Inv own (w.fail i) := by
  unfold World.fail
  cases hi : w.calls i with
  | none => exact h
  | some c =>
    dsimp only
    cases hr : c.result with
    | some r => exact h
    | none => exact inv_error h hi

/-! ### A call takes effect -/

/-- Applications and containers change so that nothing is taken back. -/
theorem inv_ext {own : Nat → Nat} {w w' : World} (h : Inv own w) (he : Ext w w')
    (h1 : ∀ a app, w'.apps a = some app → a < w'.nApps) (h2 : ∀ k t, w'.conts k = some t → k < w'.nConts)
    (hco : ∀ k t, w'.conts k = some t →
      ∃ app, w'.apps t.app = some app ∧ app.cluster = own t.worker ∧ (app.phase = .ended → t.alive = false))
    (hrest : w'.calls = w.calls ∧ w'.nCalls = w.nCalls ∧ w'.stat = w.stat ∧ w'.appOf = w.appOf ∧
      w'.contOf = w.contOf ∧ w'.clients = w.clients ∧ w'.addrs = w.addrs) : Inv own w' := by
  obtain ⟨r1, r2, r3, r4, r5, r6, r7⟩ := hrest
  refine ⟨h1, h2, ?_, hco, ?_, ?_, ?_, ?_, ?_⟩
  · rw [r1, r2]; exact h.freshCall
  · rw [r5]; exact fun k t e => cont_mono he (h.contOf k t e)
  · rw [r4]; exact fun c a e => app_mono he (h.appOf c a e)
  · rw [r6]; exact fun c cl e => (h.clients c cl e).mono he
  · rw [r7]
    intro c addr e
    obtain ⟨e1, a, e2, e3⟩ := h.addrs c addr e
    obtain ⟨s1, s2⟩ := he.settled c e1
    exact ⟨s1, a, s2.trans e2, e3.mono he⟩
  · rw [r1]
    intro i c hi
    refine (h.calls i c hi).mono he ?_
    intro n hn hw
    rw [r3]
    exact submit_starting h hi hn hw

/-- A new application. -/
theorem inv_newApp {own : Nat → Nat} {w : World} (h : Inv own w) (c : Nat) :
    Inv own { w with apps := upd w.apps w.nApps (some ⟨c, .accepted, false⟩), nApps := w.nApps + 1 } := by
  have hne : ∀ a app, w.apps a = some app → a ≠ w.nApps := fun a app e => Nat.ne_of_lt (h.freshApp a app e)
  refine inv_ext h ?_ ?_ h.freshCont ?_ ⟨rfl, rfl, rfl, rfl, rfl, rfl, rfl⟩
  · refine ⟨?_, fun k t e => ⟨t, e, rfl, rfl, id⟩, fun c hc => ⟨hc, rfl⟩⟩
    intro a app e
    refine ⟨app, ?_, rfl, id, id, fun x hx => Or.inl hx⟩
    show upd w.apps w.nApps _ a = some app
    rw [upd_ne _ _ (hne a app e)]
    exact e
  · intro a app e
    show a < w.nApps + 1
    by_cases ha : a = w.nApps
    · omega
    · have e' : upd w.apps w.nApps (some ⟨c, .accepted, false⟩) a = some app := e
      rw [upd_ne _ _ ha] at e'
      have := h.freshApp a app e'
      omega
  · intro k t e
    obtain ⟨app, h1, h2⟩ := h.conts k t e
    refine ⟨app, ?_, h2⟩
    show upd w.apps w.nApps _ t.app = some app
    rw [upd_ne _ _ (hne _ app h1)]
    exact h1

/-- A new container. -/
theorem inv_newCont {own : Nat → Nat} {w : World} (h : Inv own w) (a k : Nat) (app : App) (ha : w.apps a = some app)
    (hc : app.cluster = own k) (hp : app.phase ≠ .ended) :
    Inv own { w with conts := upd w.conts w.nConts (some ⟨a, k, true⟩), nConts := w.nConts + 1 } := by
  have hne : ∀ t x, w.conts t = some x → t ≠ w.nConts := fun t x e => Nat.ne_of_lt (h.freshCont t x e)
  refine inv_ext h ?_ h.freshApp ?_ ?_ ⟨rfl, rfl, rfl, rfl, rfl, rfl, rfl⟩
  · refine ⟨fun a app e => ⟨app, e, rfl, id, id, fun x hx => Or.inl hx⟩, ?_, fun c hc => ⟨hc, rfl⟩⟩
    intro t x e
    refine ⟨x, ?_, rfl, rfl, id⟩
    show upd w.conts w.nConts _ t = some x
    rw [upd_ne _ _ (hne t x e)]
    exact e
  · intro t x e
    show t < w.nConts + 1
    by_cases ht : t = w.nConts
    · omega
    · have e' : upd w.conts w.nConts (some ⟨a, k, true⟩) t = some x := e
      rw [upd_ne _ _ ht] at e'
      have := h.freshCont t x e'
      omega
  · intro t x e
    have e' : upd w.conts w.nConts (some ⟨a, k, true⟩) t = some x := e
    by_cases ht : t = w.nConts
    · rw [ht, upd_same] at e'
      cases e'
      exact ⟨app, ha, hc, fun e => absurd e hp⟩
    · rw [upd_ne _ _ ht] at e'
      exact h.conts t x e'

/-- A container is killed. -/
theorem inv_killCont {own : Nat → Nat} {w : World} (h : Inv own w) (t : Nat) (x : Cont) (hx : w.conts t = some x) :
    Inv own (w.killCont t x) := by
  refine inv_ext h ?_ h.freshApp ?_ ?_ ⟨rfl, rfl, rfl, rfl, rfl, rfl, rfl⟩
  · refine ⟨fun a app e => ⟨app, e, rfl, id, id, fun x hx => Or.inl hx⟩, ?_, fun c hc => ⟨hc, rfl⟩⟩
    intro k y e
    by_cases hk : k = t
    · subst hk
      rw [hx] at e
      cases e
      exact ⟨_, upd_same _ _ _, rfl, rfl, fun e => (by cases e)⟩
    · refine ⟨y, ?_, rfl, rfl, id⟩
      show upd w.conts t _ k = some y
      rw [upd_ne _ _ hk]
      exact e
  · intro k y e
    have e' : upd w.conts t (some { x with alive := false }) k = some y := e
    by_cases hk : k = t
    · subst hk; exact h.freshCont k x hx
    · rw [upd_ne _ _ hk] at e'; exact h.freshCont k y e'
  · intro k y e
    have e' : upd w.conts t (some { x with alive := false }) k = some y := e
    by_cases hk : k = t
    · subst hk
      rw [upd_same] at e'
      cases e'
      obtain ⟨app, h1, h2, h3⟩ := h.conts k x hx
      exact ⟨app, h1, h2, fun _ => rfl⟩
    · rw [upd_ne _ _ hk] at e'
      exact h.conts k y e'

/-- An application changes so that nothing is taken back, and does not end. -/
theorem inv_app {own : Nat → Nat} {w : World} (h : Inv own w) (a : Nat) (app app' : App) (ha : w.apps a = some app)
    (h1 : app'.cluster = app.cluster) (h2 : app.told = true → app'.told = true) (h3 : app.phase = .ended → app'.phase = .ended)
    (h4 : ∀ x, app.phase = .running x → app'.phase = .running x ∨ app'.phase = .ended)
    (h5 : app'.phase = .ended → app.phase = .ended) :
    Inv own { w with apps := upd w.apps a (some app') } := by
  refine inv_ext h ?_ ?_ h.freshCont ?_ ⟨rfl, rfl, rfl, rfl, rfl, rfl, rfl⟩
  · refine ⟨?_, fun k t e => ⟨t, e, rfl, rfl, id⟩, fun c hc => ⟨hc, rfl⟩⟩
    intro b ap e
    by_cases hb : b = a
    · subst hb
      rw [ha] at e
      cases e
      exact ⟨app', upd_same _ _ _, h1, h2, h3, h4⟩
    · refine ⟨ap, ?_, rfl, id, id, fun x hx => Or.inl hx⟩
      show upd w.apps a _ b = some ap
      rw [upd_ne _ _ hb]
      exact e
  · intro b ap e
    have e' : upd w.apps a (some app') b = some ap := e
    by_cases hb : b = a
    · subst hb; exact h.freshApp b app ha
    · rw [upd_ne _ _ hb] at e'; exact h.freshApp b ap e'
  · intro k t e
    obtain ⟨ap, e1, e2, e3⟩ := h.conts k t e
    by_cases hb : t.app = a
    · rw [hb, ha] at e1
      cases e1
      refine ⟨app', ?_, h1.trans e2, fun e => e3 (h5 e)⟩
      show upd w.apps a _ t.app = _
      rw [hb, upd_same]
    · refine ⟨ap, ?_, e2, e3⟩
      show upd w.apps a _ t.app = _
      rw [upd_ne _ _ hb]
      exact e1

/-- A client of a cluster that reaches a master reaches that of the application of the cluster. -/
theorem reaches_good {w : World} {c : Nat} {cl : Client} (g : Good w c cl) (hr : w.reaches cl = true) :
    ∃ app, w.apps cl.app = some app ∧ app.cluster = c ∧ app.phase = .running cl.addr := by
  obtain ⟨g1, g2, g3, app, h1, h2, h3⟩ := g
  unfold World.reaches at hr
  rw [h1] at hr
  simp only [Bool.and_eq_true, decide_eq_true_eq] at hr
  exact ⟨app, h1, h2, hr.1⟩

theorem inv_exec {own : Nat → Nat} {w : World} (h : Inv own w) (i : Nat) : Inv own (w.exec i) := by
  unfold World.exec
  cases hi : w.calls i with
  | none => exact h
  | some c =>
    dsimp only
    obtain ⟨k, r, wt⟩ := c
    have hok := h.calls i _ hi
    cases r with
    | some r => exact h
    | none =>
      cases k with
      | submit n =>
        refine inv_entry (c := ⟨.submit n, none, wt⟩) (inv_newApp h n) i hi _ ?_
        refine ⟨hok.1, ?_⟩
        intro a e
        cases e
        exact ⟨_, upd_same _ _ _, rfl⟩
      | add k cl =>
        by_cases hr : w.reaches cl = true
        · dsimp only
          rw [if_pos hr]
          obtain ⟨app, e1, e2, e3⟩ := reaches_good hok.1 hr
          refine inv_entry (c := ⟨.add k cl, none, wt⟩) (inv_newCont h cl.app k app e1 e2 (by rw [e3]; intro e; cases e)) i hi _ ?_
          refine ⟨hok.1, ?_⟩
          intro t e
          cases e
          exact ⟨_, upd_same _ _ _, rfl⟩
        · dsimp only
          rw [if_neg hr]
          exact inv_error h hi
      | killCont k cl t =>
        by_cases hr : w.reaches cl = true
        · dsimp only
          rw [if_pos hr]
          cases hx : w.conts t with
          | none => exact inv_error h hi
          | some x =>
            dsimp only
            by_cases ha : x.app = cl.app
            · rw [if_pos ha]
              have hk := inv_killCont h t x hx
              refine inv_entry (c := ⟨.killCont k cl t, none, wt⟩) hk i hi _ ?_
              refine ⟨hok.1, ?_⟩
              refine ⟨_, upd_same _ _ _, ?_⟩
              obtain ⟨y, e1, e2⟩ := hok.2
              have e1' : w.conts t = some y := e1
              rw [hx] at e1'
              cases e1'
              exact e2
            · rw [if_neg ha]; exact inv_error h hi
        · dsimp only
          rw [if_neg hr]
          exact inv_error h hi
      | killApp n a =>
        obtain ⟨o1, o2, o3⟩ := hok
        dsimp only
        cases hx : w.apps a with
        | none => exact inv_error h hi
        | some app =>
          have ha := inv_app h a app { app with told := true } hx rfl (fun _ => rfl) id (fun x hx => Or.inl hx) id
          refine inv_entry (c := ⟨.killApp n a, none, wt⟩) ha i hi _ ?_
          exact ⟨o1, o2, fun r e => ⟨_, upd_same _ _ _, rfl⟩⟩

theorem inv_runs {own : Nat → Nat} {w : World} (h : Inv own w) (a addr : Nat) : Inv own (w.runs a addr) := by
  unfold World.runs
  cases hx : w.apps a with
  | none => exact h
  | some app =>
    dsimp only
    by_cases hp : app.phase = .accepted
    · rw [if_pos hp]
      refine inv_app h a app _ hx rfl id ?_ ?_ ?_
      · intro e; rw [hp] at e; cases e
      · intro x e; rw [hp] at e; cases e
      · intro e; cases e
    · rw [if_neg hp]; exact h

theorem inv_ends {own : Nat → Nat} {w : World} (h : Inv own w) (a : Nat) : Inv own (w.ends a) := by
  unfold World.ends
  cases hx : w.apps a with
  | none => exact h
  | some app =>
    dsimp only
    refine inv_ext h ?_ ?_ ?_ ?_ ⟨rfl, rfl, rfl, rfl, rfl, rfl, rfl⟩
    · refine ⟨?_, ?_, fun c hc => ⟨hc, rfl⟩⟩
      · intro b ap e
        by_cases hb : b = a
        · subst hb
          rw [hx] at e
          cases e
          exact ⟨_, upd_same _ _ _, rfl, id, fun _ => rfl, fun x hx => Or.inr rfl⟩
        · refine ⟨ap, ?_, rfl, id, id, fun x hx => Or.inl hx⟩
          show upd w.apps a _ b = some ap
          rw [upd_ne _ _ hb]
          exact e
      · intro k t e
        refine ⟨if t.app = a then { t with alive := false } else t, ?_, ?_, ?_, ?_⟩
        · show (w.conts k).map _ = _
          rw [e]; rfl
        · by_cases ht : t.app = a <;> simp [ht]
        · by_cases ht : t.app = a <;> simp [ht]
        · by_cases ht : t.app = a <;> simp [ht]
    · intro b ap e
      have e' : upd w.apps a (some { app with phase := .ended }) b = some ap := e
      by_cases hb : b = a
      · subst hb; exact h.freshApp b app hx
      · rw [upd_ne _ _ hb] at e'; exact h.freshApp b ap e'
    · intro k t e
      have e' : (w.conts k).map (fun t => if t.app = a then { t with alive := false } else t) = some t := e
      cases hk : w.conts k with
      | none => rw [hk] at e'; cases e'
      | some y => exact h.freshCont k y hk
    · intro k t e
      have e' : (w.conts k).map (fun t => if t.app = a then { t with alive := false } else t) = some t := e
      cases hk : w.conts k with
      | none => rw [hk] at e'; cases e'
      | some y =>
        rw [hk] at e'
        have e'' : (if y.app = a then { y with alive := false } else y) = t := Option.some.inj e'
        obtain ⟨ap, h1, h2, h3⟩ := h.conts k y hk
        by_cases hy : y.app = a
        · rw [if_pos hy] at e''
          subst e''
          refine ⟨{ app with phase := .ended }, ?_, ?_, fun _ => rfl⟩
          · show upd w.apps a _ y.app = _
            rw [hy, upd_same]
          · rw [hy, hx] at h1
            cases h1
            exact h2
        · rw [if_neg hy] at e''
          subst e''
          refine ⟨ap, ?_, h2, h3⟩
          show upd w.apps a _ y.app = _
          rw [upd_ne _ _ hy]
          exact h1

/-! ### Results are picked up -/

theorem leave_not_waited {w : World} {i : Nat} {c : Call} {n : Nat} {own : Nat → Nat} (h : Inv own w)
    (hu : ∀ j d, w.calls j = some d → d.kind = .submit n → d.waited = true → j = i) :
    ∀ j d, (w.leave i c).calls j = some d → d.kind = .submit n → d.waited = true → False := by
  intro j d hj hk hw
  have hj' : upd w.calls i (some { c with waited := false }) j = some d := hj
  by_cases e : j = i
  · rw [e, upd_same] at hj'
    cases hj'
    cases hw
  · rw [upd_ne _ _ e] at hj'
    exact e (hu j d hj' hk hw)

/-- Nobody waits for two submissions of one cluster. -/
def OneSubmit (w : World) : Prop :=
  ∀ n i j c d, w.calls i = some c → w.calls j = some d → c.kind = .submit n → d.kind = .submit n →
    c.waited = true → d.waited = true → i = j

theorem inv_finish_submit {own : Nat → Nat} {w : World} (h : Inv own w) {n a : Nat} (hs : w.stat n = .starting)
    (hn : ∀ j d, w.calls j = some d → d.kind = .submit n → d.waited = true → False)
    (ha : ∃ app, w.apps a = some app ∧ app.cluster = n) :
    Inv own { w with appOf := upd w.appOf n (some a), stat := upd w.stat n .recorded } := by
  have hns : ¬ Settled w n := by
    intro hc
    unfold Settled at hc
    rw [hs] at hc
    rcases hc with e | e | e <;> cases e
  have hset : ∀ c, Settled w c → Settled { w with appOf := upd w.appOf n (some a), stat := upd w.stat n .recorded } c ∧
      ({ w with appOf := upd w.appOf n (some a), stat := upd w.stat n .recorded } : World).appOf c = w.appOf c := by
    intro c hc
    have e : c ≠ n := fun e => hns (e ▸ hc)
    refine ⟨?_, upd_ne _ _ e⟩
    show upd w.stat n _ c = _ ∨ upd w.stat n _ c = _ ∨ upd w.stat n _ c = _
    rw [upd_ne _ _ e]
    exact hc
  refine inv_states h rfl rfl rfl rfl hset ?_ h.contOf (fun e he => he) (fun e he => he) h.freshCall ?_
  · intro c b e
    have e' : upd w.appOf n (some a) c = some b := e
    by_cases hc : c = n
    · subst hc; rw [upd_same] at e'; cases e'; exact ha
    · rw [upd_ne _ _ hc] at e'; exact h.appOf c b e'
  · intro i c hi
    refine (h.calls i c hi).mono (w := w) (w' := { w with appOf := upd w.appOf n (some a), stat := upd w.stat n .recorded })
      (Ext.same rfl rfl hset) ?_
    intro m hm hw
    show upd w.stat n .recorded m = .starting
    by_cases e : m = n
    · subst e; exact (hn i c hi hm hw).elim
    · rw [upd_ne _ _ e]; exact submit_starting h hi hm hw

theorem inv_contOf {own : Nat → Nat} {w : World} (h : Inv own w) (k t : Nat) (ht : ∃ x, w.conts t = some x ∧ x.worker = k) :
    Inv own { w with contOf := upd w.contOf k (some t) } := by
  refine inv_states h rfl rfl rfl rfl (fun c hc => ⟨hc, rfl⟩) h.appOf ?_ (fun e he => he) (fun e he => he) h.freshCall ?_
  · intro k' t' e
    have e' : upd w.contOf k (some t) k' = some t' := e
    by_cases hk : k' = k
    · subst hk; rw [upd_same] at e'; cases e'; exact ht
    · rw [upd_ne _ _ hk] at e'; exact h.contOf k' t' e'
  · intro i c hi
    exact (h.calls i c hi).mono (w := w) (w' := { w with contOf := upd w.contOf k (some t) })
      (Ext.same rfl rfl (fun c hc => ⟨hc, rfl⟩)) (fun n hn hw => submit_starting h hi hn hw)

theorem inv_forget {own : Nat → Nat} {w : World} (h : Inv own w) (c : Nat) : Inv own (w.forget c) := by
  refine inv_states h rfl rfl rfl rfl (fun c hc => ⟨hc, rfl⟩) h.appOf h.contOf (fun e he => (mem_discard he).1)
    (fun e he => (mem_erase he).1) h.freshCall ?_
  intro i d hi
  exact (h.calls i d hi).mono (w := w) (w' := w.forget c) (Ext.same rfl rfl (fun c hc => ⟨hc, rfl⟩))
    (fun n hn hw => submit_starting h hi hn hw)

theorem inv_resume {own : Nat → Nat} {w : World} (h : Inv own w) (h1 : OneSubmit w) (i : Nat) : Inv own (w.resume i) := by
  unfold World.resume
  cases hi : w.calls i with
  | none => exact h
  | some c =>
    obtain ⟨k, r, wt⟩ := c
    have hok := h.calls i _ hi
    have hl := inv_leave h hi
    cases wt with
    | false => exact h
    | true =>
      cases r with
      | none => exact h
      | some r =>
        dsimp only
        cases k with
        | submit n =>
          have hs : w.stat n = .starting := hok.1 rfl
          have hn := leave_not_waited (c := ⟨.submit n, some r, true⟩) (i := i) (n := n) h
            (fun j d hj hk hw => (h1 n i j _ d hi hj rfl hk rfl hw).symm)
          cases r with
          | ok a => exact inv_finish_submit hl hs hn (hok.2 a rfl)
          | error =>
            exact inv_stat hl n .submitted (fun _ => Or.inl rfl) (fun j d hj hk hw => (hn j d hj hk hw).elim)
        | add k cl =>
          cases r with
          | ok t => exact inv_wstat (inv_contOf hl k t (hok.2 t rfl)) _
          | error => exact inv_wstat hl _
        | killCont k cl t => exact inv_wstat hl _
        | killApp n a =>
          obtain ⟨o1, o2, o3⟩ := hok
          have hns : w.stat n ≠ .starting := by
            intro e
            have o1' : Settled w n := o1
            unfold Settled at o1'
            rw [e] at o1'
            rcases o1' with e | e | e <;> cases e
          cases r with
          | ok r =>
            exact inv_stat (inv_forget hl n) n .stopped (fun _ => Or.inr (Or.inr rfl)) (not_waited (inv_forget hl n) hns)
          | error =>
            exact inv_stat hl n .stopped (fun _ => Or.inr (Or.inr rfl)) (not_waited hl hns)

theorem inv_timeout {own : Nat → Nat} {w : World} (h : Inv own w) (h1 : OneSubmit w) (i : Nat) : Inv own (w.timeout i) := by
  unfold World.timeout
  cases hi : w.calls i with
  | none => exact h
  | some c =>
    obtain ⟨k, r, wt⟩ := c
    have hl := inv_leave h hi
    cases wt with
    | false => exact h
    | true =>
      dsimp only
      cases k with
      | submit n =>
        have hn := leave_not_waited (c := ⟨.submit n, r, true⟩) (i := i) (n := n) h
          (fun j d hj hk hw => (h1 n i j _ d hi hj rfl hk rfl hw).symm)
        exact inv_stat hl n .submitted (fun _ => Or.inl rfl) (fun j d hj hk hw => (hn j d hj hk hw).elim)
      | add k cl => exact inv_wstat hl _
      | killCont k cl t => exact h
      | killApp n a => exact h

theorem settled_reload (w : World) (c : Nat) (h : Settled w c) : Settled w.restart c := by
  unfold Settled at h ⊢
  show (w.stat c).reload = _ ∨ (w.stat c).reload = _ ∨ (w.stat c).reload = _
  rcases h with e | e | e <;> rw [e] <;> simp [CStat.reload]

theorem inv_restart {own : Nat → Nat} {w : World} (h : Inv own w) : Inv own w.restart := by
  have hset : ∀ c, Settled w c → Settled w.restart c ∧ w.restart.appOf c = w.appOf c :=
    fun c hc => ⟨settled_reload w c hc, rfl⟩
  refine inv_states h rfl rfl rfl rfl hset h.appOf h.contOf (fun e he => (by cases he)) (fun e he => (by cases he)) ?_ ?_
  · intro i c hi
    have hi' : (w.calls i).map (fun c => { c with waited := false }) = some c := hi
    cases hc : w.calls i with
    | none => rw [hc] at hi'; cases hi'
    | some d => exact h.freshCall i d hc
  · intro i c hi
    have hi' : (w.calls i).map (fun c => { c with waited := false }) = some c := hi
    cases hc : w.calls i with
    | none => rw [hc] at hi'; cases hi'
    | some d =>
      rw [hc] at hi'
      cases hi'
      exact (callOk_leave (h.calls i d hc)).mono (w := w) (w' := w.restart) (Ext.same rfl rfl hset) (fun n hn hw => (by cases hw))

end Verif.Yarn
