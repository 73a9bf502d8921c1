import Verif.Yarn.Steps
/-
What one step of clusters on YARN can do.
-/
set_option linter.unusedSimpArgs false
set_option linter.unusedVariables false
namespace Verif.Yarn

/-- A call is begun by this operation. -/
def Begun (own : Nat → Nat) (w : World) (op : Op) : Kind → Prop
  | .submit n => op = .start n ∧ w.stat n = .created
  | .add k cl => op = .startWorker k ∧ w.stat (own k) = .submitted ∧ (w.getClient (own k)).1 = some cl
  | .killCont k cl t => op = .stopWorker k ∧ w.contOf k = some t ∧ (w.getClient (own k)).1 = some cl
  | .killApp n a => op = .stop n ∧ w.appOf n = some a

/-- A call as it was before a step. -/
def Before (w : World) (op : Op) (i : Nat) (d : Call) : Prop :=
  ∃ c, w.calls i = some c ∧ c.kind = d.kind ∧ (d.waited = true → c.waited = true) ∧
    (d.result = c.result ∨ (c.result = none ∧ (op = .exec i ∨ op = .fail i)))

theorem before_same {w : World} {op : Op} {i : Nat} {d : Call} (h : w.calls i = some d) : Before w op i d :=
  ⟨d, h, rfl, id, Or.inl rfl⟩

theorem before_leave {w : World} {op : Op} {i j : Nat} {c d : Call} (hc : w.calls i = some c)
    (h : upd w.calls i (some { c with waited := false }) j = some d) : Before w op j d := by
  by_cases e : j = i
  · subst e
    rw [upd_same] at h
    cases h
    exact ⟨c, hc, rfl, fun e => (by cases e), Or.inl rfl⟩
  · rw [upd_ne _ _ e] at h
    exact before_same h

theorem before_answer {w : World} {op : Op} {i j : Nat} {c d : Call} {r : Result} (hc : w.calls i = some c)
    (hn : c.result = none) (ho : op = .exec i ∨ op = .fail i)
    (h : upd w.calls i (some { c with result := some r }) j = some d) : Before w op j d := by
  by_cases e : j = i
  · subst e
    rw [upd_same] at h
    cases h
    exact ⟨c, hc, rfl, id, Or.inr ⟨hn, ho⟩⟩
  · rw [upd_ne _ _ e] at h
    exact before_same h

/-- A call is new. -/
def Fresh (own : Nat → Nat) (w : World) (op : Op) (i : Nat) (d : Call) : Prop :=
  i = w.nCalls ∧ d.result = none ∧ d.waited = true ∧ Begun own w op d.kind

theorem of_call {own : Nat → Nat} {w : World} {op : Op} {i : Nat} {d : Call} {k : Kind} (hb : Begun own w op k)
    (h : upd w.calls w.nCalls (some ⟨k, none, true⟩) i = some d) : Before w op i d ∨ Fresh own w op i d := by
  by_cases e : i = w.nCalls
  · subst e
    rw [upd_same] at h
    cases h
    exact Or.inr ⟨rfl, rfl, rfl, hb⟩
  · rw [upd_ne _ _ e] at h
    exact Or.inl (before_same h)

/-- Calls are as before or new. -/
theorem step_calls {own : Nat → Nat} {w : World} {op : Op} {i : Nat} {d : Call}
    (h : (w.step own op).calls i = some d) : Before w op i d ∨ Fresh own w op i d := by
  cases op with
  | start c =>
    unfold World.step World.start at h
    by_cases hs : w.stat c = .created
    · simp only [if_pos hs] at h
      exact of_call (k := .submit c) ⟨rfl, hs⟩ h
    · simp only [if_neg hs] at h
      exact Or.inl (before_same h)
  | mark c =>
    unfold World.step World.mark at h
    by_cases hs : w.stat c = .recorded
    · simp only [if_pos hs] at h; exact Or.inl (before_same h)
    · simp only [if_neg hs] at h; exact Or.inl (before_same h)
  | startWorker k =>
    unfold World.step World.startWorker at h
    by_cases hs : w.stat (own k) = .submitted ∧ w.wstat k = .created
    · simp only [if_pos hs] at h
      obtain ⟨cs, as, e, _⟩ := getClient_shape w (own k)
      cases hg : w.getClient (own k) with
      | mk o w' =>
        rw [hg] at h e
        have e' : w' = _ := e
        cases o with
        | none =>
          rw [e'] at h
          exact Or.inl (before_same h)
        | some cl =>
          rw [e'] at h
          exact of_call (k := .add k cl) ⟨rfl, hs.1, by rw [hg]⟩ h
    · simp only [if_neg hs] at h; exact Or.inl (before_same h)
  | stopWorker k =>
    unfold World.step World.stopWorker at h
    by_cases hs : w.stat (own k) = .submitted ∧ w.wstat k = .submitted
    · simp only [if_pos hs] at h
      cases ht : w.contOf k with
      | none => rw [ht] at h; exact Or.inl (before_same h)
      | some t =>
        rw [ht] at h
        dsimp only at h
        obtain ⟨cs, as, e, _⟩ := getClient_shape w (own k)
        cases hg : w.getClient (own k) with
        | mk o w' =>
          rw [hg] at h e
          have e' : w' = _ := e
          cases o with
          | none =>
            rw [e'] at h
            exact Or.inl (before_same h)
          | some cl =>
            rw [e'] at h
            exact of_call (k := .killCont k cl t) ⟨rfl, ht, by rw [hg]⟩ h
    · simp only [if_neg hs] at h; exact Or.inl (before_same h)
  | check c =>
    unfold World.step World.check at h
    by_cases hs : w.stat c = .submitted ∨ w.stat c = .stopping ∨ w.stat c = .stopped
    · simp only [if_pos hs] at h
      rw [(getClient_rest w c).2.2.2.2.2.1] at h
      exact Or.inl (before_same h)
    · simp only [if_neg hs] at h; exact Or.inl (before_same h)
  | stop c =>
    unfold World.step World.stop at h
    by_cases hs : w.stat c = .created ∨ w.stat c = .submitted
    · simp only [if_pos hs] at h
      cases ha : w.appOf c with
      | none => rw [ha] at h; exact Or.inl (before_same h)
      | some a => rw [ha] at h; exact of_call (k := .killApp c a) ⟨rfl, ha⟩ h
    · simp only [if_neg hs] at h; exact Or.inl (before_same h)
  | exec j =>
    unfold World.step World.exec at h
    dsimp only at h
    cases hj : w.calls j with
    | none => rw [hj] at h; exact Or.inl (before_same h)
    | some c =>
      rw [hj] at h
      obtain ⟨k, r, wt⟩ := c
      cases r with
      | some r => exact Or.inl (before_same h)
      | none =>
        have hb : ∀ r, upd w.calls j (some { (⟨k, none, wt⟩ : Call) with result := some r }) i = some d → Before w (.exec j) i d :=
          fun r hr => before_answer hj rfl (Or.inl rfl) hr
        left
        cases k with
        | submit n => exact hb _ h
        | add k cl =>
          dsimp only at h
          by_cases hr : w.reaches cl = true
          · rw [if_pos hr] at h; exact hb _ h
          · rw [if_neg hr] at h; exact hb _ h
        | killCont k cl t =>
          dsimp only at h
          by_cases hr : w.reaches cl = true
          · rw [if_pos hr] at h
            cases hx : w.conts t with
            | none => rw [hx] at h; exact hb _ h
            | some x =>
              rw [hx] at h
              dsimp only at h
              by_cases ha : x.app = cl.app
              · rw [if_pos ha] at h; exact hb _ h
              · rw [if_neg ha] at h; exact hb _ h
          · rw [if_neg hr] at h; exact hb _ h
        | killApp n a =>
          dsimp only at h
          cases hx : w.apps a with
          | none => rw [hx] at h; exact hb _ h
          | some x => rw [hx] at h; exact hb _ h
  | fail j =>
    unfold World.step World.fail at h
    dsimp only at h
    cases hj : w.calls j with
    | none => rw [hj] at h; exact Or.inl (before_same h)
    | some c =>
      rw [hj] at h
      dsimp only at h
      cases hr : c.result with
      | some r => rw [hr] at h; exact Or.inl (before_same h)
      | none => rw [hr] at h; exact Or.inl (before_answer hj hr (Or.inr rfl) h)
  | resume j =>
    unfold World.step World.resume at h
    dsimp only at h
    cases hj : w.calls j with
    | none => rw [hj] at h; exact Or.inl (before_same h)
    | some c =>
      rw [hj] at h
      obtain ⟨k, r, wt⟩ := c
      cases wt with
      | false => exact Or.inl (before_same h)
      | true =>
        cases r with
        | none => exact Or.inl (before_same h)
        | some r =>
          dsimp only at h
          left
          cases k <;> cases r <;> exact before_leave hj h
  | timeout j =>
    unfold World.step World.timeout at h
    dsimp only at h
    cases hj : w.calls j with
    | none => rw [hj] at h; exact Or.inl (before_same h)
    | some c =>
      rw [hj] at h
      obtain ⟨k, r, wt⟩ := c
      left
      cases wt with
      | false => exact before_same h
      | true => cases k <;> first | exact before_leave hj h | exact before_same h
  | restart =>
    have h' : (w.calls i).map (fun c => { c with waited := false }) = some d := h
    cases hj : w.calls i with
    | none => rw [hj] at h'; cases h'
    | some c =>
      rw [hj] at h'
      cases h'
      exact Or.inl ⟨c, hj, rfl, fun e => (by cases e), Or.inl rfl⟩
  | runs a addr =>
    unfold World.step World.runs at h
    dsimp only at h
    cases hx : w.apps a with
    | none => rw [hx] at h; exact Or.inl (before_same h)
    | some app =>
      rw [hx] at h
      dsimp only at h
      by_cases hp : app.phase = .accepted
      · rw [if_pos hp] at h; exact Or.inl (before_same h)
      · rw [if_neg hp] at h; exact Or.inl (before_same h)
  | ends a =>
    unfold World.step World.ends at h
    dsimp only at h
    cases hx : w.apps a with
    | none => rw [hx] at h; exact Or.inl (before_same h)
    | some app => rw [hx] at h; exact Or.inl (before_same h)

theorem oneSubmit_step {own : Nat → Nat} {w : World} (h : Inv own w) (h1 : OneSubmit w) (op : Op) :
    OneSubmit (w.step own op) := by
  intro n i j c d hi hj hc hd wc wd
  rcases step_calls hi with ⟨c', e1, e2, e3, _⟩ | ⟨e1, _, _, e4⟩ <;> rcases step_calls hj with ⟨d', f1, f2, f3, _⟩ | ⟨f1, _, _, f4⟩
  · exact h1 n i j c' d' e1 f1 (e2.trans hc) (f2.trans hd) (e3 wc) (f3 wd)
  · rw [hd] at f4
    exact absurd (submit_starting h e1 (e2.trans hc) (e3 wc)) (by rw [f4.2]; intro e; cases e)
  · rw [hc] at e4
    exact absurd (submit_starting h f1 (f2.trans hd) (f3 wd)) (by rw [e4.2]; intro e; cases e)
  · omega

theorem inv_step {own : Nat → Nat} {w : World} (h : Inv own w) (h1 : OneSubmit w) (op : Op) : Inv own (w.step own op) := by
  cases op with
  | start c => exact inv_start h c
  | mark c => exact inv_mark h c
  | startWorker k => exact inv_startWorker h k
  | stopWorker k => exact inv_stopWorker h k
  | check c => exact inv_check h c
  | stop c => exact inv_stop h c
  | exec i => exact inv_exec h i
  | fail i => exact inv_fail h i
  | resume i => exact inv_resume h h1 i
  | timeout i => exact inv_timeout h h1 i
  | restart => exact inv_restart h
  | runs a addr => exact inv_runs h a addr
  | ends a => exact inv_ends h a

theorem run_snoc (own : Nat → Nat) (w : World) (ops : List Op) (op : Op) :
    w.run own (ops ++ [op]) = (w.run own ops).step own op := by
  unfold World.run
  rw [List.foldl_append]
  rfl

theorem inv_init (own : Nat → Nat) (size : Nat) : Inv own (World.init size) := by
  refine ⟨?_, ?_, ?_, ?_, ?_, ?_, ?_, ?_, ?_⟩ <;> intros <;>
    first
      | (rename_i h; cases h; done)
      | (rename_i h; exact absurd h (List.not_mem_nil))

theorem inv_run (own : Nat → Nat) (size : Nat) (ops : List Op) :
    Inv own ((World.init size).run own ops) ∧ OneSubmit ((World.init size).run own ops) := by
  induction ops using Router.snoc_induction with
  | nil => exact ⟨inv_init own size, fun n i j c d hi => (by cases hi)⟩
  | snoc ops op ih =>
    rw [run_snoc]
    exact ⟨inv_step ih.1 ih.2 op, oneSubmit_step ih.1 ih.2 op⟩

/-! ### Applications -/

/-- Applications are as before, apart from their phase, or new. -/
theorem step_apps {own : Nat → Nat} {w : World} {op : Op} {a : Nat} {app : App} (h : (w.step own op).apps a = some app) :
    (∃ app0, w.apps a = some app0 ∧ app0.cluster = app.cluster ∧ (app0.told = true → app.told = true)) ∨
    (a = w.nApps ∧ ∃ i c, op = .exec i ∧ w.calls i = some c ∧ c.kind = .submit app.cluster ∧ c.result = none ∧
      (w.step own op).calls i = some { c with result := some (.ok a) }) := by
  have same : ∀ {app}, w.apps a = some app →
      (∃ app0, w.apps a = some app0 ∧ app0.cluster = app.cluster ∧ (app0.told = true → app.told = true)) :=
    fun {app} e => ⟨app, e, rfl, id⟩
  cases op with
  | start c =>
    left
    unfold World.step World.start at h
    by_cases hs : w.stat c = .created
    · simp only [if_pos hs] at h; exact same h
    · simp only [if_neg hs] at h; exact same h
  | mark c =>
    left
    unfold World.step World.mark at h
    by_cases hs : w.stat c = .recorded
    · simp only [if_pos hs] at h; exact same h
    · simp only [if_neg hs] at h; exact same h
  | startWorker k =>
    left
    unfold World.step World.startWorker at h
    by_cases hs : w.stat (own k) = .submitted ∧ w.wstat k = .created
    · simp only [if_pos hs] at h
      obtain ⟨cs, as, e, _⟩ := getClient_shape w (own k)
      cases hg : w.getClient (own k) with
      | mk o w' =>
        rw [hg] at h e
        have e' : w' = _ := e
        rw [e'] at h
        cases o <;> exact same h
    · simp only [if_neg hs] at h; exact same h
  | stopWorker k =>
    left
    unfold World.step World.stopWorker at h
    by_cases hs : w.stat (own k) = .submitted ∧ w.wstat k = .submitted
    · simp only [if_pos hs] at h
      cases ht : w.contOf k with
      | none => rw [ht] at h; exact same h
      | some t =>
        rw [ht] at h
        dsimp only at h
        obtain ⟨cs, as, e, _⟩ := getClient_shape w (own k)
        cases hg : w.getClient (own k) with
        | mk o w' =>
          rw [hg] at h e
          have e' : w' = _ := e
          rw [e'] at h
          cases o <;> exact same h
    · simp only [if_neg hs] at h; exact same h
  | check c =>
    left
    unfold World.step World.check at h
    by_cases hs : w.stat c = .submitted ∨ w.stat c = .stopping ∨ w.stat c = .stopped
    · simp only [if_pos hs] at h
      rw [(getClient_rest w c).2.2.1] at h
      exact same h
    · simp only [if_neg hs] at h; exact same h
  | stop c =>
    left
    unfold World.step World.stop at h
    by_cases hs : w.stat c = .created ∨ w.stat c = .submitted
    · simp only [if_pos hs] at h
      cases ha : w.appOf c with
      | none => rw [ha] at h; exact same h
      | some a => rw [ha] at h; exact same h
    · simp only [if_neg hs] at h; exact same h
  | exec j =>
    unfold World.step World.exec at h ⊢
    dsimp only at h ⊢
    cases hj : w.calls j with
    | none => rw [hj] at h; exact Or.inl (same h)
    | some c =>
      rw [hj] at h
      obtain ⟨k, r, wt⟩ := c
      cases r with
      | some r => exact Or.inl (same h)
      | none =>
        cases k with
        | submit n =>
          have h' : upd w.apps w.nApps (some ⟨n, .accepted, false⟩) a = some app := h
          by_cases e : a = w.nApps
          · rw [e, upd_same] at h'
            cases h'
            right
            refine ⟨e, j, ⟨.submit n, none, wt⟩, rfl, hj, rfl, rfl, ?_⟩
            subst e
            exact upd_same _ _ _
          · rw [upd_ne _ _ e] at h'
            exact Or.inl (same h')
        | add k cl =>
          dsimp only at h
          by_cases hr : w.reaches cl = true
          · rw [if_pos hr] at h; exact Or.inl (same h)
          · rw [if_neg hr] at h; exact Or.inl (same h)
        | killCont k cl t =>
          left
          dsimp only at h
          by_cases hr : w.reaches cl = true
          · rw [if_pos hr] at h
            cases hx : w.conts t with
            | none => rw [hx] at h; exact same h
            | some x =>
              rw [hx] at h
              dsimp only at h
              by_cases ha : x.app = cl.app
              · rw [if_pos ha] at h; exact same h
              · rw [if_neg ha] at h; exact same h
          · rw [if_neg hr] at h; exact same h
        | killApp n b =>
          left
          dsimp only at h
          cases hx : w.apps b with
          | none => rw [hx] at h; exact same h
          | some x =>
            rw [hx] at h
            have h' : upd w.apps b (some { x with told := true }) a = some app := h
            by_cases e : a = b
            · subst e
              rw [upd_same] at h'
              cases h'
              exact ⟨x, hx, rfl, fun _ => rfl⟩
            · rw [upd_ne _ _ e] at h'
              exact same h'
  | fail j =>
    left
    unfold World.step World.fail at h
    dsimp only at h
    cases hj : w.calls j with
    | none => rw [hj] at h; exact same h
    | some c =>
      rw [hj] at h
      dsimp only at h
      cases hr : c.result with
      | some r => rw [hr] at h; exact same h
      | none => rw [hr] at h; exact same h
  | resume j =>
    left
    unfold World.step World.resume at h
    dsimp only at h
    cases hj : w.calls j with
    | none => rw [hj] at h; exact same h
    | some c =>
      rw [hj] at h
      obtain ⟨k, r, wt⟩ := c
      cases wt with
      | false => exact same h
      | true =>
        cases r with
        | none => exact same h
        | some r =>
          dsimp only at h
          cases k <;> cases r <;> exact same h
  | timeout j =>
    left
    unfold World.step World.timeout at h
    dsimp only at h
    cases hj : w.calls j with
    | none => rw [hj] at h; exact same h
    | some c =>
      rw [hj] at h
      obtain ⟨k, r, wt⟩ := c
      cases wt with
      | false => exact same h
      | true => cases k <;> exact same h
  | restart => exact Or.inl (same h)
  | runs b addr =>
    left
    unfold World.step World.runs at h
    dsimp only at h
    cases hx : w.apps b with
    | none => rw [hx] at h; exact same h
    | some x =>
      rw [hx] at h
      dsimp only at h
      by_cases hp : x.phase = .accepted
      · rw [if_pos hp] at h
        have h' : upd w.apps b (some { x with phase := .running addr }) a = some app := h
        by_cases e : a = b
        · subst e; rw [upd_same] at h'; cases h'; exact ⟨x, hx, rfl, id⟩
        · rw [upd_ne _ _ e] at h'; exact same h'
      · rw [if_neg hp] at h; exact same h
  | ends b =>
    left
    unfold World.step World.ends at h
    dsimp only at h
    cases hx : w.apps b with
    | none => rw [hx] at h; exact same h
    | some x =>
      rw [hx] at h
      have h' : upd w.apps b (some { x with phase := .ended }) a = some app := h
      by_cases e : a = b
      · subst e; rw [upd_same] at h'; cases h'; exact ⟨x, hx, rfl, id⟩
      · rw [upd_ne _ _ e] at h'; exact same h'

/-! ### States -/

/-- How the state of a cluster and its application in the database may change. -/
inductive Move (w : World) (op : Op) (c : Nat) : CStat → Option Nat → Prop where
  | same : Move w op c (w.stat c) (w.appOf c)
  | start (h : op = .start c) (hs : w.stat c = .created) : Move w op c .starting (w.appOf c)
  | mark (h : op = .mark c) (hs : w.stat c = .recorded) : Move w op c .submitted (w.appOf c)
  | record (i a : Nat) (h : op = .resume i) (hi : w.calls i = some ⟨.submit c, some (.ok a), true⟩) :
      Move w op c .recorded (some a)
  | refused (i : Nat) (h : op = .resume i) (hi : w.calls i = some ⟨.submit c, some .error, true⟩) :
      Move w op c .submitted (w.appOf c)
  | late (i : Nat) (r : Option Result) (h : op = .timeout i) (hi : w.calls i = some ⟨.submit c, r, true⟩) :
      Move w op c .submitted (w.appOf c)
  | none (h : op = .stop c) (hs : w.stat c = .created ∨ w.stat c = .submitted) (ha : w.appOf c = none) :
      Move w op c .stopped (w.appOf c)
  | stop (h : op = .stop c) (hs : w.stat c = .created ∨ w.stat c = .submitted) : Move w op c .stopping (w.appOf c)
  | killed (i a : Nat) (r : Result) (h : op = .resume i) (hi : w.calls i = some ⟨.killApp c a, some r, true⟩) :
      Move w op c .stopped (w.appOf c)
  | reload (h : op = .restart) : Move w op c (w.stat c).reload (w.appOf c)

theorem step_stat (own : Nat → Nat) (w : World) (op : Op) (c : Nat) :
    Move w op c ((w.step own op).stat c) ((w.step own op).appOf c) := by
  cases op with
  | start n =>
    unfold World.step World.start
    by_cases hs : w.stat n = .created
    · simp only [if_pos hs]
      by_cases e : c = n
      · subst e
        show Move w _ c (upd w.stat c _ c) _
        rw [upd_same]
        exact .start rfl hs
      · show Move w _ c (upd w.stat n _ c) _
        rw [upd_ne _ _ e]
        exact .same
    · simp only [if_neg hs]; exact .same
  | mark n =>
    unfold World.step World.mark
    by_cases hs : w.stat n = .recorded
    · simp only [if_pos hs]
      by_cases e : c = n
      · subst e
        show Move w _ c (upd w.stat c _ c) _
        rw [upd_same]
        exact .mark rfl hs
      · show Move w _ c (upd w.stat n _ c) _
        rw [upd_ne _ _ e]
        exact .same
    · simp only [if_neg hs]; exact .same
  | startWorker k =>
    unfold World.step World.startWorker
    by_cases hs : w.stat (own k) = .submitted ∧ w.wstat k = .created
    · simp only [if_pos hs]
      obtain ⟨cs, as, e, _⟩ := getClient_shape w (own k)
      cases hg : w.getClient (own k) with
      | mk o w' =>
        rw [hg] at e
        have e' : w' = _ := e
        rw [e']
        cases o <;> exact .same
    · simp only [if_neg hs]; exact .same
  | stopWorker k =>
    unfold World.step World.stopWorker
    by_cases hs : w.stat (own k) = .submitted ∧ w.wstat k = .submitted
    · simp only [if_pos hs]
      cases ht : w.contOf k with
      | none => exact .same
      | some t =>
        dsimp only
        obtain ⟨cs, as, e, _⟩ := getClient_shape w (own k)
        cases hg : w.getClient (own k) with
        | mk o w' =>
          rw [hg] at e
          have e' : w' = _ := e
          rw [e']
          cases o <;> exact .same
    · simp only [if_neg hs]; exact .same
  | check n =>
    unfold World.step World.check
    by_cases hs : w.stat n = .submitted ∨ w.stat n = .stopping ∨ w.stat n = .stopped
    · simp only [if_pos hs]
      rw [(getClient_rest w n).1, (getClient_rest w n).2.1]
      exact .same
    · simp only [if_neg hs]; exact .same
  | stop n =>
    unfold World.step World.stop
    by_cases hs : w.stat n = .created ∨ w.stat n = .submitted
    · simp only [if_pos hs]
      cases ha : w.appOf n with
      | none =>
        by_cases e : c = n
        · subst e
          show Move w _ c (upd w.stat c _ c) _
          rw [upd_same]
          exact .none rfl hs ha
        · show Move w _ c (upd w.stat n _ c) _
          rw [upd_ne _ _ e]
          exact .same
      | some a =>
        by_cases e : c = n
        · subst e
          show Move w _ c (upd w.stat c _ c) _
          rw [upd_same]
          exact .stop rfl hs
        · show Move w _ c (upd w.stat n _ c) _
          rw [upd_ne _ _ e]
          exact .same
    · simp only [if_neg hs]; exact .same
  | exec j =>
    unfold World.step World.exec
    dsimp only
    cases hj : w.calls j with
    | none => exact .same
    | some d =>
      obtain ⟨k, r, wt⟩ := d
      cases r with
      | some r => exact .same
      | none =>
        cases k with
        | submit n => exact .same
        | add k cl =>
          dsimp only
          by_cases hr : w.reaches cl = true
          · rw [if_pos hr]; exact .same
          · rw [if_neg hr]; exact .same
        | killCont k cl t =>
          dsimp only
          by_cases hr : w.reaches cl = true
          · rw [if_pos hr]
            cases hx : w.conts t with
            | none => exact .same
            | some x =>
              dsimp only
              by_cases ha : x.app = cl.app
              · rw [if_pos ha]; exact .same
              · rw [if_neg ha]; exact .same
          · rw [if_neg hr]; exact .same
        | killApp n b =>
          dsimp only
          cases hx : w.apps b with
          | none => exact .same
          | some x => exact .same
  | fail j =>
    unfold World.step World.fail
    dsimp only
    cases hj : w.calls j with
    | none => exact .same
    | some d =>
      dsimp only
      cases hr : d.result with
      | some r => exact .same
      | none => exact .same
  | resume j =>
    unfold World.step World.resume
    dsimp only
    cases hj : w.calls j with
    | none => exact .same
    | some d =>
      obtain ⟨k, r, wt⟩ := d
      cases wt with
      | false => exact .same
      | true =>
        cases r with
        | none => exact .same
        | some r =>
          dsimp only
          cases k with
          | submit n =>
            cases r with
            | ok a =>
              show Move w _ c (upd w.stat n .recorded c) (upd w.appOf n (some a) c)
              by_cases e : c = n
              · subst e
                rw [upd_same, upd_same]
                exact .record j a rfl hj
              · rw [upd_ne _ _ e, upd_ne _ _ e]
                exact .same
            | error =>
              show Move w _ c (upd w.stat n .submitted c) (w.appOf c)
              by_cases e : c = n
              · subst e
                rw [upd_same]
                exact .refused j rfl hj
              · rw [upd_ne _ _ e]
                exact .same
          | add k cl => cases r <;> exact .same
          | killCont k cl t => cases r <;> exact .same
          | killApp n a =>
            have key : Move w (.resume j) c (upd w.stat n .stopped c) (w.appOf c) := by
              by_cases e : c = n
              · subst e
                rw [upd_same]
                exact .killed j a r rfl hj
              · rw [upd_ne _ _ e]
                exact .same
            cases r <;> exact key
  | timeout j =>
    unfold World.step World.timeout
    dsimp only
    cases hj : w.calls j with
    | none => exact .same
    | some d =>
      obtain ⟨k, r, wt⟩ := d
      cases wt with
      | false => exact .same
      | true =>
        cases k with
        | submit n =>
          show Move w _ c (upd w.stat n .submitted c) (w.appOf c)
          by_cases e : c = n
          · subst e
            rw [upd_same]
            exact .late j r rfl hj
          · rw [upd_ne _ _ e]
            exact .same
        | add k cl => exact .same
        | killCont k cl t => exact .same
        | killApp n a => exact .same
  | restart => exact .reload rfl
  | runs b addr =>
    unfold World.step World.runs
    dsimp only
    cases hx : w.apps b with
    | none => exact .same
    | some x =>
      dsimp only
      by_cases hp : x.phase = .accepted
      · rw [if_pos hp]; exact .same
      · rw [if_neg hp]; exact .same
  | ends b =>
    unfold World.step World.ends
    dsimp only
    cases hx : w.apps b with
    | none => exact .same
    | some x => exact .same

/-! ### Containers -/

/-- What ends a container: the end of its application, or a call that kills it. -/
theorem step_conts {own : Nat → Nat} {w : World} {op : Op} {t : Nat} {x y : Cont} (hx : w.conts t = some x)
    (ha : x.alive = true) (h : (w.step own op).conts t = some y) (hy : y.alive = false) :
    op = .ends x.app ∨ ∃ i c k cl, op = .exec i ∧ w.calls i = some c ∧ c.kind = .killCont k cl t ∧ c.result = none := by
  have same : ∀ {P : Prop}, w.conts t = some y → P := by
    intro P e
    rw [hx] at e
    cases e
    rw [ha] at hy
    cases hy
  cases op with
  | start c =>
    unfold World.step World.start at h
    by_cases hs : w.stat c = .created
    · simp only [if_pos hs] at h; exact same h
    · simp only [if_neg hs] at h; exact same h
  | mark c =>
    unfold World.step World.mark at h
    by_cases hs : w.stat c = .recorded
    · simp only [if_pos hs] at h; exact same h
    · simp only [if_neg hs] at h; exact same h
  | startWorker k =>
    unfold World.step World.startWorker at h
    by_cases hs : w.stat (own k) = .submitted ∧ w.wstat k = .created
    · simp only [if_pos hs] at h
      obtain ⟨cs, as, e, _⟩ := getClient_shape w (own k)
      cases hg : w.getClient (own k) with
      | mk o w' =>
        rw [hg] at h e
        have e' : w' = _ := e
        rw [e'] at h
        cases o <;> exact same h
    · simp only [if_neg hs] at h; exact same h
  | stopWorker k =>
    unfold World.step World.stopWorker at h
    by_cases hs : w.stat (own k) = .submitted ∧ w.wstat k = .submitted
    · simp only [if_pos hs] at h
      cases ht : w.contOf k with
      | none => rw [ht] at h; exact same h
      | some t =>
        rw [ht] at h
        dsimp only at h
        obtain ⟨cs, as, e, _⟩ := getClient_shape w (own k)
        cases hg : w.getClient (own k) with
        | mk o w' =>
          rw [hg] at h e
          have e' : w' = _ := e
          rw [e'] at h
          cases o <;> exact same h
    · simp only [if_neg hs] at h; exact same h
  | check c =>
    unfold World.step World.check at h
    by_cases hs : w.stat c = .submitted ∨ w.stat c = .stopping ∨ w.stat c = .stopped
    · simp only [if_pos hs] at h
      rw [(getClient_rest w c).2.2.2.1] at h
      exact same h
    · simp only [if_neg hs] at h; exact same h
  | stop c =>
    unfold World.step World.stop at h
    by_cases hs : w.stat c = .created ∨ w.stat c = .submitted
    · simp only [if_pos hs] at h
      cases ha : w.appOf c with
      | none => rw [ha] at h; exact same h
      | some a => rw [ha] at h; exact same h
    · simp only [if_neg hs] at h; exact same h
  | exec j =>
    unfold World.step World.exec at h
    dsimp only at h
    cases hj : w.calls j with
    | none => rw [hj] at h; exact same h
    | some c =>
      rw [hj] at h
      obtain ⟨k, r, wt⟩ := c
      cases r with
      | some r => exact same h
      | none =>
        cases k with
        | submit n => exact same h
        | add k cl =>
          dsimp only at h
          by_cases hr : w.reaches cl = true
          · rw [if_pos hr] at h
            have h' : upd w.conts w.nConts (some ⟨cl.app, k, true⟩) t = some y := h
            by_cases e : t = w.nConts
            · rw [e, upd_same] at h'
              cases h'
              cases hy
            · rw [upd_ne _ _ e] at h'
              exact same h'
          · rw [if_neg hr] at h; exact same h
        | killCont k cl t' =>
          dsimp only at h
          by_cases hr : w.reaches cl = true
          · rw [if_pos hr] at h
            cases hx' : w.conts t' with
            | none => rw [hx'] at h; exact same h
            | some x' =>
              rw [hx'] at h
              dsimp only at h
              by_cases ha : x'.app = cl.app
              · rw [if_pos ha] at h
                have h' : upd w.conts t' (some { x' with alive := false }) t = some y := h
                by_cases e : t = t'
                · subst e
                  exact Or.inr ⟨j, _, k, cl, rfl, hj, rfl, rfl⟩
                · rw [upd_ne _ _ e] at h'
                  exact same h'
              · rw [if_neg ha] at h; exact same h
          · rw [if_neg hr] at h; exact same h
        | killApp n b =>
          dsimp only at h
          cases hx : w.apps b with
          | none => rw [hx] at h; exact same h
          | some x => rw [hx] at h; exact same h
  | fail j =>
    unfold World.step World.fail at h
    dsimp only at h
    cases hj : w.calls j with
    | none => rw [hj] at h; exact same h
    | some c =>
      rw [hj] at h
      dsimp only at h
      cases hr : c.result with
      | some r => rw [hr] at h; exact same h
      | none => rw [hr] at h; exact same h
  | resume j =>
    unfold World.step World.resume at h
    dsimp only at h
    cases hj : w.calls j with
    | none => rw [hj] at h; exact same h
    | some c =>
      rw [hj] at h
      obtain ⟨k, r, wt⟩ := c
      cases wt with
      | false => exact same h
      | true =>
        cases r with
        | none => exact same h
        | some r =>
          dsimp only at h
          cases k <;> cases r <;> exact same h
  | timeout j =>
    unfold World.step World.timeout at h
    dsimp only at h
    cases hj : w.calls j with
    | none => rw [hj] at h; exact same h
    | some c =>
      rw [hj] at h
      obtain ⟨k, r, wt⟩ := c
      cases wt with
      | false => exact same h
      | true => cases k <;> exact same h
  | restart => exact same h
  | runs b addr =>
    unfold World.step World.runs at h
    dsimp only at h
    cases hx : w.apps b with
    | none => rw [hx] at h; exact same h
    | some x =>
      rw [hx] at h
      dsimp only at h
      by_cases hp : x.phase = .accepted
      · rw [if_pos hp] at h; exact same h
      · rw [if_neg hp] at h; exact same h
  | ends b =>
    unfold World.step World.ends at h
    dsimp only at h
    cases hb : w.apps b with
    | none => rw [hb] at h; exact same h
    | some app =>
      rw [hb] at h
      have h' : (w.conts t).map (fun t => if t.app = b then { t with alive := false } else t) = some y := h
      rw [hx] at h'
      have h'' : (if x.app = b then { x with alive := false } else x) = y := Option.some.inj h'
      by_cases e : x.app = b
      · subst e; exact Or.inl rfl
      · rw [if_neg e] at h''
        subst h''
        exact same hx

end Verif.Yarn
