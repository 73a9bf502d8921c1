import Verif.Yarn.Shape
import Verif.Utils.Props
/-
Lives of clusters on YARN.
-/
set_option linter.unusedSimpArgs false
set_option linter.unusedVariables false
namespace Verif.Yarn

/-! ### Calls stay -/

/-- A call after a step. -/
def After (op : Op) (i : Nat) (d : Call) (o : Option Call) : Prop :=
  ∃ d', o = some d' ∧ d'.kind = d.kind ∧ (∀ r, d.result = some r → d'.result = some r) ∧
    (d'.waited = d.waited ∨ (op = .resume i ∧ d.result ≠ none) ∨ op = .timeout i ∨ op = .restart)

theorem after_same {w : World} {op : Op} {i : Nat} {d : Call} (h : w.calls i = some d) : After op i d (w.calls i) :=
  ⟨d, h, rfl, fun r e => e, Or.inl rfl⟩

theorem after_call {w : World} {op : Op} {i : Nat} {d : Call} (h : w.calls i = some d) (hl : i < w.nCalls) (x : Option Call) :
    After op i d (upd w.calls w.nCalls x i) := by
  rw [upd_ne _ _ (Nat.ne_of_lt hl)]
  exact after_same h

theorem after_answer {w : World} {op : Op} {i j : Nat} {d c : Call} (h : w.calls i = some d) (hj : w.calls j = some c)
    (hn : c.result = none) (r : Result) : After op i d (upd w.calls j (some { c with result := some r }) i) := by
  by_cases e : i = j
  · subst e
    rw [upd_same]
    rw [h] at hj
    cases hj
    exact ⟨_, rfl, rfl, fun r e => (by rw [hn] at e; cases e), Or.inl rfl⟩
  · rw [upd_ne _ _ e]
    exact after_same h

theorem after_leave {w : World} {op : Op} {i j : Nat} {d c : Call} (h : w.calls i = some d) (hj : w.calls j = some c)
    (ho : (op = .resume j ∧ c.result ≠ none) ∨ op = .timeout j) :
    After op i d (upd w.calls j (some { c with waited := false }) i) := by
  by_cases e : i = j
  · subst e
    rw [upd_same]
    rw [h] at hj
    cases hj
    refine ⟨_, rfl, rfl, fun r e => e, ?_⟩
    rcases ho with e | e
    · exact Or.inr (Or.inl e)
    · exact Or.inr (Or.inr (Or.inl e))
  · rw [upd_ne _ _ e]
    exact after_same h

theorem step_calls_after {own : Nat → Nat} {w : World} (op : Op) {i : Nat} {d : Call} (hl : i < w.nCalls)
    (h : w.calls i = some d) : After op i d ((w.step own op).calls i) := by
  cases op with
  | start c =>
    unfold World.step World.start
    by_cases hs : w.stat c = .created
    · simp only [if_pos hs]; exact after_call h hl _
    · simp only [if_neg hs]; exact after_same h
  | mark c =>
    unfold World.step World.mark
    by_cases hs : w.stat c = .recorded
    · simp only [if_pos hs]; exact after_same h
    · simp only [if_neg hs]; exact after_same h
  | startWorker k =>
    unfold World.step World.startWorker
    by_cases hs : w.stat (own k) = .submitted ∧ w.wstat k = .created
    · simp only [if_pos hs]
      obtain ⟨cs, as, e, _⟩ := getClient_shape w (own k)
      cases hg : w.getClient (own k) with
      | mk o w' =>
        rw [hg] at e
        have e' : w' = _ := e
        rw [e']
        cases o with
        | none => exact after_same h
        | some cl => exact after_call h hl _
    · simp only [if_neg hs]; exact after_same h
  | stopWorker k =>
    unfold World.step World.stopWorker
    by_cases hs : w.stat (own k) = .submitted ∧ w.wstat k = .submitted
    · simp only [if_pos hs]
      cases ht : w.contOf k with
      | none => exact after_same h
      | some t =>
        dsimp only
        obtain ⟨cs, as, e, _⟩ := getClient_shape w (own k)
        cases hg : w.getClient (own k) with
        | mk o w' =>
          rw [hg] at e
          have e' : w' = _ := e
          rw [e']
          cases o with
          | none => exact after_same h
          | some cl => exact after_call h hl _
    · simp only [if_neg hs]; exact after_same h
  | check c =>
    unfold World.step World.check
    by_cases hs : w.stat c = .submitted ∨ w.stat c = .stopping ∨ w.stat c = .stopped
    · simp only [if_pos hs]
      rw [(getClient_rest w c).2.2.2.2.2.1]
      exact after_same h
    · simp only [if_neg hs]; exact after_same h
  | stop c =>
    unfold World.step World.stop
    by_cases hs : w.stat c = .created ∨ w.stat c = .submitted
    · simp only [if_pos hs]
      cases ha : w.appOf c with
      | none => exact after_same h
      | some a => exact after_call h hl _
    · simp only [if_neg hs]; exact after_same h
  | exec j =>
    unfold World.step World.exec
    dsimp only
    cases hj : w.calls j with
    | none => exact after_same h
    | some c =>
      obtain ⟨k, r, wt⟩ := c
      cases r with
      | some r => exact after_same h
      | none =>
        have hb : ∀ r, After (.exec j) i d (upd w.calls j (some { (⟨k, none, wt⟩ : Call) with result := some r }) i) :=
          fun r => after_answer h hj rfl r
        cases k with
        | submit n => exact hb _
        | add k cl =>
          dsimp only
          by_cases hr : w.reaches cl = true
          · rw [if_pos hr]; exact hb _
          · rw [if_neg hr]; exact hb _
        | killCont k cl t =>
          dsimp only
          by_cases hr : w.reaches cl = true
          · rw [if_pos hr]
            cases hx : w.conts t with
            | none => exact hb _
            | some x =>
              dsimp only
              by_cases ha : x.app = cl.app
              · rw [if_pos ha]; exact hb _
              · rw [if_neg ha]; exact hb _
          · rw [if_neg hr]; exact hb _
        | killApp n a =>
          dsimp only
          cases hx : w.apps a with
          | none => exact hb _
          | some x => exact hb _
  | fail j =>
    unfold World.step World.fail
    dsimp only
    cases hj : w.calls j with
    | none => exact after_same h
    | some c =>
      dsimp only
      cases hr : c.result with
      | some r => exact after_same h
      | none => exact after_answer h hj hr _
  | resume j =>
    unfold World.step World.resume
    dsimp only
    cases hj : w.calls j with
    | none => exact after_same h
    | some c =>
      obtain ⟨k, r, wt⟩ := c
      cases wt with
      | false => exact after_same h
      | true =>
        cases r with
        | none => exact after_same h
        | some r =>
          dsimp only
          cases k <;> cases r <;> exact after_leave h hj (Or.inl ⟨rfl, fun e => (by cases e)⟩)
  | timeout j =>
    unfold World.step World.timeout
    dsimp only
    cases hj : w.calls j with
    | none => exact after_same h
    | some c =>
      obtain ⟨k, r, wt⟩ := c
      cases wt with
      | false => exact after_same h
      | true => cases k <;> first | exact after_leave h hj (Or.inr rfl) | exact after_same h
  | restart =>
    refine ⟨{ d with waited := false }, ?_, rfl, fun r e => e, Or.inr (Or.inr (Or.inr rfl))⟩
    show (w.calls i).map _ = _
    rw [h]
    rfl
  | runs a addr =>
    unfold World.step World.runs
    dsimp only
    cases hx : w.apps a with
    | none => exact after_same h
    | some app =>
      dsimp only
      by_cases hp : app.phase = .accepted
      · rw [if_pos hp]; exact after_same h
      · rw [if_neg hp]; exact after_same h
  | ends a =>
    unfold World.step World.ends
    dsimp only
    cases hx : w.apps a with
    | none => exact after_same h
    | some app => exact after_same h

/-- What was told stays told. -/
theorem told_step {own : Nat → Nat} {w : World} (hi : Inv own w) (op : Op) {a : Nat} {app : App} (h : w.apps a = some app)
    (ht : app.told = true) {app' : App} (h' : (w.step own op).apps a = some app') : app'.told = true := by
  rcases step_apps h' with ⟨app0, e1, _, e3⟩ | ⟨e, _⟩
  · rw [h] at e1; cases e1; exact e3 ht
  · exact absurd (hi.freshApp a app h) (by omega)

/-- Applications do not vanish. -/
theorem apps_stay {own : Nat → Nat} {w : World} (op : Op) {a : Nat} {app : App} (h : w.apps a = some app) :
    ∃ app', (w.step own op).apps a = some app' := by
  have upd_stay : ∀ b (x : App), ∃ app', upd w.apps b (some x) a = some app' := by
    intro b x
    by_cases e : a = b
    · exact ⟨x, by rw [e, upd_same]⟩
    · exact ⟨app, by rw [upd_ne _ _ e]; exact h⟩
  cases op with
  | start c =>
    unfold World.step World.start
    by_cases hs : w.stat c = .created
    · simp only [if_pos hs]; exact ⟨app, h⟩
    · simp only [if_neg hs]; exact ⟨app, h⟩
  | mark c =>
    unfold World.step World.mark
    by_cases hs : w.stat c = .recorded
    · simp only [if_pos hs]; exact ⟨app, h⟩
    · simp only [if_neg hs]; exact ⟨app, h⟩
  | startWorker k =>
    unfold World.step World.startWorker
    by_cases hs : w.stat (own k) = .submitted ∧ w.wstat k = .created
    · simp only [if_pos hs]
      obtain ⟨cs, as, e, _⟩ := getClient_shape w (own k)
      cases hg : w.getClient (own k) with
      | mk o w' =>
        rw [hg] at e
        have e' : w' = _ := e
        rw [e']
        cases o <;> exact ⟨app, h⟩
    · simp only [if_neg hs]; exact ⟨app, h⟩
  | stopWorker k =>
    unfold World.step World.stopWorker
    by_cases hs : w.stat (own k) = .submitted ∧ w.wstat k = .submitted
    · simp only [if_pos hs]
      cases ht : w.contOf k with
      | none => exact ⟨app, h⟩
      | some t =>
        dsimp only
        obtain ⟨cs, as, e, _⟩ := getClient_shape w (own k)
        cases hg : w.getClient (own k) with
        | mk o w' =>
          rw [hg] at e
          have e' : w' = _ := e
          rw [e']
          cases o <;> exact ⟨app, h⟩
    · simp only [if_neg hs]; exact ⟨app, h⟩
  | check c =>
    unfold World.step World.check
    by_cases hs : w.stat c = .submitted ∨ w.stat c = .stopping ∨ w.stat c = .stopped
    · simp only [if_pos hs]
      rw [(getClient_rest w c).2.2.1]
      exact ⟨app, h⟩
    · simp only [if_neg hs]; exact ⟨app, h⟩
  | stop c =>
    unfold World.step World.stop
    by_cases hs : w.stat c = .created ∨ w.stat c = .submitted
    · simp only [if_pos hs]
      cases ha : w.appOf c <;> exact ⟨app, h⟩
    · simp only [if_neg hs]; exact ⟨app, h⟩
  | exec j =>
    unfold World.step World.exec
    dsimp only
    cases hj : w.calls j with
    | none => exact ⟨app, h⟩
    | some c =>
      obtain ⟨k, r, wt⟩ := c
      cases r with
      | some r => exact ⟨app, h⟩
      | none =>
        cases k with
        | submit n => exact upd_stay _ _
        | add k cl =>
          dsimp only
          by_cases hr : w.reaches cl = true
          · rw [if_pos hr]; exact ⟨app, h⟩
          · rw [if_neg hr]; exact ⟨app, h⟩
        | killCont k cl t =>
          dsimp only
          by_cases hr : w.reaches cl = true
          · rw [if_pos hr]
            cases hx : w.conts t with
            | none => exact ⟨app, h⟩
            | some x =>
              dsimp only
              by_cases ha : x.app = cl.app
              · rw [if_pos ha]; exact ⟨app, h⟩
              · rw [if_neg ha]; exact ⟨app, h⟩
          · rw [if_neg hr]; exact ⟨app, h⟩
        | killApp n b =>
          dsimp only
          cases hx : w.apps b with
          | none => exact ⟨app, h⟩
          | some x => exact upd_stay _ _
  | fail j =>
    unfold World.step World.fail
    dsimp only
    cases hj : w.calls j with
    | none => exact ⟨app, h⟩
    | some c =>
      dsimp only
      cases hr : c.result <;> exact ⟨app, h⟩
  | resume j =>
    unfold World.step World.resume
    dsimp only
    cases hj : w.calls j with
    | none => exact ⟨app, h⟩
    | some c =>
      obtain ⟨k, r, wt⟩ := c
      cases wt with
      | false => exact ⟨app, h⟩
      | true =>
        cases r with
        | none => exact ⟨app, h⟩
        | some r =>
          dsimp only
          cases k <;> cases r <;> exact ⟨app, h⟩
  | timeout j =>
    unfold World.step World.timeout
    dsimp only
    cases hj : w.calls j with
    | none => exact ⟨app, h⟩
    | some c =>
      obtain ⟨k, r, wt⟩ := c
      cases wt with
      | false => exact ⟨app, h⟩
      | true => cases k <;> exact ⟨app, h⟩
  | restart => exact ⟨app, h⟩
  | runs b addr =>
    unfold World.step World.runs
    dsimp only
    cases hx : w.apps b with
    | none => exact ⟨app, h⟩
    | some x =>
      dsimp only
      by_cases hp : x.phase = .accepted
      · rw [if_pos hp]; exact upd_stay _ _
      · rw [if_neg hp]; exact ⟨app, h⟩
  | ends b =>
    unfold World.step World.ends
    dsimp only
    cases hx : w.apps b with
    | none => exact ⟨app, h⟩
    | some x => exact upd_stay _ _

/-! ### Undisturbed clusters -/

/-- What disturbs the start or the end of a cluster: its submission takes too long, the gateway is killed while the
cluster is starting, or YARN cannot be told to end it. -/
def Disturbs (w : World) (c : Nat) : Op → Prop
  | .timeout i => ∃ r, w.calls i = some ⟨.submit c, r, true⟩
  | .restart => w.stat c = .starting ∨ w.stat c = .recorded
  | .fail i => ∃ a r wt, w.calls i = some ⟨.killApp c a, r, wt⟩
  | _ => False

/-- Nothing of the history disturbs the start or the end of the cluster. -/
def Undisturbed (own : Nat → Nat) (c : Nat) : World → List Op → Prop
  | _, [] => True
  | w, op :: ops => ¬ Disturbs w c op ∧ Undisturbed own c (w.step own op) ops

theorem undisturbed_snoc {own : Nat → Nat} {c : Nat} {w : World} {ops : List Op} {op : Op}
    (h : Undisturbed own c w (ops ++ [op])) : Undisturbed own c w ops ∧ ¬ Disturbs (w.run own ops) c op := by
  induction ops generalizing w with
  | nil => exact ⟨trivial, h.1⟩
  | cons o ops ih =>
    obtain ⟨h1, h2⟩ := ih h.2
    exact ⟨⟨h.1, h1⟩, h2⟩

/-- What holds of an undisturbed cluster. -/
structure Life (c : Nat) (w : World) : Prop where
  apps : ∀ a app, w.apps a = some app → app.cluster = c →
    w.appOf c = some a ∨ ∃ i, w.calls i = some ⟨.submit c, some (.ok a), true⟩
  submits : ∀ i d, w.calls i = some d → d.kind = .submit c → d.result = none → d.waited = true
  unique : ∀ i j d e, w.calls i = some d → w.calls j = some e → d.kind = .submit c → e.kind = .submit c → i = j
  created : w.stat c = .created → (∀ i d, w.calls i = some d → d.kind ≠ .submit c) ∧ w.appOf c = none
  starting : w.stat c = .starting → w.appOf c = none
  kills : ∀ i a d, w.calls i = some d → d.kind = .killApp c a → d.result ≠ some .error
  told : w.stat c = .stopped → ∀ a app, w.appOf c = some a → w.apps a = some app → app.told = true

theorem life_init (c size : Nat) : Life c (World.init size) := by
  refine ⟨?_, ?_, ?_, ?_, ?_, ?_, ?_⟩
  · intro a app h; cases h
  · intro i d h; cases h
  · intro i j d e h; cases h
  · intro _; exact ⟨fun i d h => (by cases h), rfl⟩
  · intro h; cases h
  · intro i a d h; cases h
  · intro h; cases h

/-- A submission of an undisturbed cluster that someone waits for. -/
theorem resume_submit {own : Nat → Nat} {w : World} {i c a : Nat} (h : w.calls i = some ⟨.submit c, some (.ok a), true⟩) :
    (w.step own (.resume i)).appOf c = some a := by
  show (w.resume i).appOf c = some a
  unfold World.resume
  rw [h]
  exact upd_same _ _ _

theorem exec_kill {own : Nat → Nat} {w : World} (hi : Inv own w) {i c a : Nat} {d d' : Call} (h : w.calls i = some d)
    (hk : d.kind = .killApp c a) (hr : d.result = none) (h' : (w.step own (.exec i)).calls i = some d') :
    d'.result ≠ some .error := by
  obtain ⟨k, r, wt⟩ := d
  dsimp only at hk hr
  subst hk hr
  have hok := hi.calls i _ h
  obtain ⟨o1, o2, o3⟩ := hok
  obtain ⟨app, ha, _⟩ := hi.appOf c a o2
  have h'' : (w.exec i).calls i = some d' := h'
  unfold World.exec at h''
  rw [h] at h''
  dsimp only at h''
  rw [ha] at h''
  have e : upd w.calls i (some ⟨.killApp c a, some (.ok 0), wt⟩) i = some d' := h''
  rw [upd_same] at e
  cases e
  intro e
  cases e

theorem life_step {own : Nat → Nat} {c : Nat} {w : World} (hi : Inv own w) (h : Life c w) (op : Op)
    (hd : ¬ Disturbs w c op) : Life c (w.step own op) := by
  have hmove := step_stat own w op c
  have hnoTimeout : ∀ i d, w.calls i = some d → d.kind = .submit c → d.waited = true → op ≠ .timeout i := by
    intro i d e1 e2 e3 e
    subst e
    obtain ⟨k, r, wt⟩ := d
    dsimp only at e2 e3
    subst e2 e3
    exact hd ⟨r, e1⟩
  have hnoRestart : ∀ i d, w.calls i = some d → d.kind = .submit c → d.waited = true → op ≠ .restart := by
    intro i d e1 e2 e3 e
    subst e
    exact hd (Or.inl (submit_starting hi e1 e2 e3))
  refine ⟨?_, ?_, ?_, ?_, ?_, ?_, ?_⟩
  · -- applications
    intro a app ha hc
    rcases step_apps ha with ⟨app0, e1, e2, _⟩ | ⟨e0, i, d, e1, e2, e3, e4, e5⟩
    · rcases h.apps a app0 e1 (e2.trans hc) with hr | ⟨i, hr⟩
      · left
        rw [← hr]
        generalize (w.step own op).stat c = s at hmove
        generalize (w.step own op).appOf c = o at hmove
        cases hmove with
        | record i a' ho hi' =>
          have := h.starting (submit_starting hi hi' rfl rfl)
          rw [hr] at this
          cases this
        | _ => rfl
      · obtain ⟨d', f1, f2, f3, f4⟩ := step_calls_after (own := own) op (hi.freshCall i _ hr) hr
        rcases f4 with f4 | ⟨f4, _⟩ | f4 | f4
        · right
          refine ⟨i, ?_⟩
          obtain ⟨k, r, wt⟩ := d'
          have g3 := f3 _ rfl
          dsimp only at f2 f4 g3
          subst f2 f4 g3
          exact f1
        · left
          subst f4
          exact resume_submit hr
        · exact absurd f4 (hnoTimeout i _ hr rfl rfl)
        · exact absurd f4 (hnoRestart i _ hr rfl rfl)
    · right
      refine ⟨i, ?_⟩
      obtain ⟨k, r, wt⟩ := d
      dsimp only at e3 e4
      have hw := h.submits i _ e2 (by show k = _; rw [e3, hc]) e4
      dsimp only at hw
      rw [hc] at e3
      subst hw e3
      exact e5
  · -- submissions under way
    intro i d hc hk hr
    rcases step_calls hc with ⟨d0, e1, e2, e3, e4⟩ | ⟨_, _, e, _⟩
    · have hr0 : d0.result = none := by
        rcases e4 with e4 | e4
        · rw [← e4]; exact hr
        · exact e4.1
      have hw0 := h.submits i d0 e1 (e2.trans hk) hr0
      obtain ⟨d', f1, f2, f3, f4⟩ := step_calls_after (own := own) op (hi.freshCall i _ e1) e1
      rw [hc] at f1
      cases f1
      rcases f4 with f4 | ⟨_, f4⟩ | f4 | f4
      · exact f4.trans hw0
      · exact absurd hr0 f4
      · exact absurd f4 (hnoTimeout i _ e1 (e2.trans hk) hw0)
      · exact absurd f4 (hnoRestart i _ e1 (e2.trans hk) hw0)
    · exact e
  · -- only one
    intro i j d e hi' hj hd' he
    rcases step_calls hi' with ⟨d0, e1, e2, _⟩ | ⟨e1, _, _, e4⟩ <;> rcases step_calls hj with ⟨d1, f1, f2, _⟩ | ⟨f1, _, _, f4⟩
    · exact h.unique i j d0 d1 e1 f1 (e2.trans hd') (f2.trans he)
    · rw [he] at f4
      exact absurd (e2.trans hd') ((h.created f4.2).1 i d0 e1)
    · rw [hd'] at e4
      exact absurd (f2.trans he) ((h.created e4.2).1 j d1 f1)
    · omega
  · -- created
    intro hs
    have key : w.stat c = .created ∧ (w.step own op).appOf c = w.appOf c ∧ op ≠ .start c := by
      have hx : op = .start c → w.stat c = .created → False := by
        intro e hc
        subst e
        have : (w.start c).stat c = .created := hs
        unfold World.start at this
        rw [if_pos hc] at this
        have e : upd w.stat c .starting c = .created := this
        rw [upd_same] at e
        cases e
      generalize (w.step own op).appOf c = o at hmove
      generalize (w.step own op).stat c = s at hmove hs
      cases hmove with
      | same => exact ⟨hs, rfl, fun e => hx e hs⟩
      | start e _ => cases hs
      | mark e _ => cases hs
      | record => cases hs
      | refused => cases hs
      | late => cases hs
      | none => cases hs
      | stop => cases hs
      | killed => cases hs
      | reload e =>
        refine ⟨?_, rfl, by rw [e]; intro e; cases e⟩
        subst e
        cases hc : w.stat c with
        | created => rfl
        | starting => exact absurd (Or.inl hc) hd
        | recorded => exact absurd (Or.inr hc) hd
        | submitted => rw [hc] at hs; cases hs
        | stopping => rw [hc] at hs; cases hs
        | stopped => rw [hc] at hs; cases hs
    obtain ⟨k1, k2, k3⟩ := key
    obtain ⟨c1, c2⟩ := h.created k1
    refine ⟨?_, k2.trans c2⟩
    intro i d hc hk
    rcases step_calls hc with ⟨d0, e1, e2, _⟩ | ⟨_, _, _, e4⟩
    · exact c1 i d0 e1 (e2.trans hk)
    · rw [hk] at e4
      exact k3 e4.1
  · -- starting
    intro hs
    generalize (w.step own op).appOf c = o at hmove ⊢
    generalize (w.step own op).stat c = s at hmove hs
    cases hmove with
    | same => exact h.starting hs
    | start e hc => exact (h.created hc).2
    | mark e _ => cases hs
    | record => cases hs
    | refused => cases hs
    | late => cases hs
    | none => cases hs
    | stop => cases hs
    | killed => cases hs
    | reload e => cases hc : w.stat c <;> rw [hc] at hs <;> cases hs
  · -- kills
    intro i a d hc hk
    rcases step_calls hc with ⟨d0, e1, e2, _, e4⟩ | ⟨_, e, _, _⟩
    · rcases e4 with e4 | ⟨e4, e5 | e5⟩
      · rw [e4]; exact h.kills i a d0 e1 (e2.trans hk)
      · subst e5
        exact exec_kill hi e1 (e2.trans hk) e4 hc
      · subst e5
        obtain ⟨k, r, wt⟩ := d0
        have : k = .killApp c a := e2.trans hk
        subst this
        exact absurd ⟨a, r, wt, e1⟩ hd
    · rw [e]; intro e; cases e
  · -- told
    intro hs a app ho ha
    have back : ∀ a app, w.appOf c = some a → (∀ app0, w.apps a = some app0 → app0.told = true) →
        (w.step own op).apps a = some app → app.told = true := by
      intro a app e1 e2 e3
      obtain ⟨app0, f1, _⟩ := hi.appOf c a e1
      exact told_step hi op f1 (e2 app0 f1) e3
    generalize (w.step own op).appOf c = o at hmove ho
    generalize (w.step own op).stat c = s at hmove hs
    cases hmove with
    | same => exact back a app ho (fun app0 e => h.told hs a app0 ho e) ha
    | start e hc => cases hs
    | mark e _ => cases hs
    | record => cases hs
    | refused => cases hs
    | late => cases hs
    | none e _ hn => rw [hn] at ho; cases ho
    | stop => cases hs
    | killed i b r e hi' =>
      obtain ⟨o1, o2, o3⟩ := hi.calls i _ hi'
      rw [o2] at ho
      cases ho
      cases r with
      | error => exact absurd rfl (h.kills i _ _ hi' rfl)
      | ok x =>
        obtain ⟨app0, f1, f2⟩ := o3 x rfl
        exact told_step hi op f1 f2 ha
    | reload e =>
      have hc : w.stat c = .stopped := by
        cases hc : w.stat c <;> rw [hc] at hs <;> first | rfl | cases hs
      exact back a app ho (fun app0 e => h.told hc a app0 ho e) ha

theorem life_run {own : Nat → Nat} {c size : Nat} {ops : List Op} (h : Undisturbed own c (World.init size) ops) :
    Life c ((World.init size).run own ops) := by
  induction ops using Router.snoc_induction with
  | nil => exact life_init c size
  | snoc ops op ih =>
    obtain ⟨h1, h2⟩ := undisturbed_snoc h
    rw [run_snoc]
    exact life_step (inv_run own size ops).1 (ih h1) op h2

/-! ### The caches -/

/-- Something is kept for the cluster. -/
def Cached (w : World) (c : Nat) : Prop := (∃ cl, (c, cl) ∈ w.clients.cache) ∨ ∃ addr, (c, addr) ∈ w.addrs

theorem not_cached_getClient {w : World} {n c : Nat} (hne : n ≠ c) (h : ¬ Cached w c) : ¬ Cached (w.getClient n).2 c := by
  obtain ⟨cs, as, e, h2, h3, _⟩ := getClient_shape w n
  rw [e]
  rintro (⟨cl, hm⟩ | ⟨addr, hm⟩)
  · rcases h2 _ hm with h' | ⟨h', _⟩
    · exact h (Or.inl ⟨cl, h'⟩)
    · exact hne h'.symm
  · rcases h3 _ hm with h' | ⟨h', _⟩
    · exact h (Or.inr ⟨addr, h'⟩)
    · exact hne h'.symm

/-- Nothing is kept for clusters without an application. -/
theorem not_cached_none {own : Nat → Nat} {w : World} (h : Inv own w) {c : Nat} (ha : w.appOf c = none) : ¬ Cached w c := by
  rintro (⟨cl, hm⟩ | ⟨addr, hm⟩)
  · have := (h.clients c cl hm).2.2.1
    rw [ha] at this
    cases this
  · obtain ⟨_, a, e, _⟩ := h.addrs c addr hm
    rw [ha] at e
    cases e

/-- Where nothing is kept for a cluster, something is only kept after its client was asked for. -/
theorem step_cached {own : Nat → Nat} {w : World} {op : Op} {c : Nat} (h : ¬ Cached w c)
    (hn : op = .check c → w.stat c ≠ .stopped) (hs : w.stat c = .stopped) : ¬ Cached (w.step own op) c := by
  cases op with
  | start n =>
    unfold World.step World.start
    by_cases hs : w.stat n = .created
    · simp only [if_pos hs]; exact h
    · simp only [if_neg hs]; exact h
  | mark n =>
    unfold World.step World.mark
    by_cases hs : w.stat n = .recorded
    · simp only [if_pos hs]; exact h
    · simp only [if_neg hs]; exact h
  | startWorker k =>
    unfold World.step World.startWorker
    by_cases hk : w.stat (own k) = .submitted ∧ w.wstat k = .created
    · simp only [if_pos hk]
      have hne : own k ≠ c := by intro e; rw [e, hs] at hk; cases hk.1
      have hg' := not_cached_getClient hne h
      cases hg : w.getClient (own k) with
      | mk o w' =>
        rw [hg] at hg'
        cases o <;> exact hg'
    · simp only [if_neg hk]; exact h
  | stopWorker k =>
    unfold World.step World.stopWorker
    by_cases hk : w.stat (own k) = .submitted ∧ w.wstat k = .submitted
    · simp only [if_pos hk]
      cases ht : w.contOf k with
      | none => exact h
      | some t =>
        dsimp only
        have hne : own k ≠ c := by intro e; rw [e, hs] at hk; cases hk.1
        have hg' := not_cached_getClient hne h
        cases hg : w.getClient (own k) with
        | mk o w' =>
          rw [hg] at hg'
          cases o <;> exact hg'
    · simp only [if_neg hk]; exact h
  | check n =>
    unfold World.step World.check
    by_cases hk : w.stat n = .submitted ∨ w.stat n = .stopping ∨ w.stat n = .stopped
    · simp only [if_pos hk]
      exact not_cached_getClient (fun e => hn (by rw [e]) hs) h
    · simp only [if_neg hk]; exact h
  | stop n =>
    unfold World.step World.stop
    by_cases hs : w.stat n = .created ∨ w.stat n = .submitted
    · simp only [if_pos hs]
      cases ha : w.appOf n <;> exact h
    · simp only [if_neg hs]; exact h
  | exec j =>
    unfold World.step World.exec
    dsimp only
    cases hj : w.calls j with
    | none => exact h
    | some d =>
      obtain ⟨k, r, wt⟩ := d
      cases r with
      | some r => exact h
      | none =>
        cases k with
        | submit n => exact h
        | add k cl =>
          dsimp only
          by_cases hr : w.reaches cl = true
          · rw [if_pos hr]; exact h
          · rw [if_neg hr]; exact h
        | killCont k cl t =>
          dsimp only
          by_cases hr : w.reaches cl = true
          · rw [if_pos hr]
            cases hx : w.conts t with
            | none => exact h
            | some x =>
              dsimp only
              by_cases ha : x.app = cl.app
              · rw [if_pos ha]; exact h
              · rw [if_neg ha]; exact h
          · rw [if_neg hr]; exact h
        | killApp n b =>
          dsimp only
          cases hx : w.apps b <;> exact h
  | fail j =>
    unfold World.step World.fail
    dsimp only
    cases hj : w.calls j with
    | none => exact h
    | some d =>
      dsimp only
      cases hr : d.result <;> exact h
  | resume j =>
    unfold World.step World.resume
    dsimp only
    cases hj : w.calls j with
    | none => exact h
    | some d =>
      obtain ⟨k, r, wt⟩ := d
      cases wt with
      | false => exact h
      | true =>
        cases r with
        | none => exact h
        | some r =>
          dsimp only
          cases k with
          | submit n => cases r <;> exact h
          | add k cl => cases r <;> exact h
          | killCont k cl t => cases r <;> exact h
          | killApp n a =>
            cases r with
            | error => exact h
            | ok x =>
              rintro (⟨cl, hm⟩ | ⟨addr, hm⟩)
              · exact h (Or.inl ⟨cl, (mem_discard hm).1⟩)
              · exact h (Or.inr ⟨addr, (mem_erase hm).1⟩)
  | timeout j =>
    unfold World.step World.timeout
    dsimp only
    cases hj : w.calls j with
    | none => exact h
    | some d =>
      obtain ⟨k, r, wt⟩ := d
      cases wt with
      | false => exact h
      | true => cases k <;> exact h
  | restart =>
    rintro (⟨cl, hm⟩ | ⟨addr, hm⟩)
    · exact absurd hm List.not_mem_nil
    · exact absurd hm List.not_mem_nil
  | runs b addr =>
    unfold World.step World.runs
    dsimp only
    cases hx : w.apps b with
    | none => exact h
    | some x =>
      dsimp only
      by_cases hp : x.phase = .accepted
      · rw [if_pos hp]; exact h
      · rw [if_neg hp]; exact h
  | ends b =>
    unfold World.step World.ends
    dsimp only
    cases hx : w.apps b <;> exact h

/-- What keeps something for a cluster that has stopped: the check of its workers goes on with it, or YARN could not be
told to end it. -/
def Keeps (w : World) (c : Nat) : Op → Prop
  | .check n => n = c ∧ w.stat c = .stopped
  | .fail i => ∃ a r wt, w.calls i = some ⟨.killApp c a, r, wt⟩
  | _ => False

/-- Nothing of the history does that. -/
def Freed (own : Nat → Nat) (c : Nat) : World → List Op → Prop
  | _, [] => True
  | w, op :: ops => ¬ Keeps w c op ∧ Freed own c (w.step own op) ops

theorem freed_snoc {own : Nat → Nat} {c : Nat} {w : World} {ops : List Op} {op : Op}
    (h : Freed own c w (ops ++ [op])) : Freed own c w ops ∧ ¬ Keeps (w.run own ops) c op := by
  induction ops generalizing w with
  | nil => exact ⟨trivial, h.1⟩
  | cons o ops ih =>
    obtain ⟨h1, h2⟩ := ih h.2
    exact ⟨⟨h.1, h1⟩, h2⟩

theorem kills_step {own : Nat → Nat} {c : Nat} {w : World} (hi : Inv own w)
    (h : ∀ i a d, w.calls i = some d → d.kind = .killApp c a → d.result ≠ some .error) (op : Op) (hk : ¬ Keeps w c op) :
    ∀ i a d, (w.step own op).calls i = some d → d.kind = .killApp c a → d.result ≠ some .error := by
  intro i a d hc hd
  rcases step_calls hc with ⟨d0, e1, e2, _, e4⟩ | ⟨_, e, _, _⟩
  · rcases e4 with e4 | ⟨e4, e5 | e5⟩
    · rw [e4]; exact h i a d0 e1 (e2.trans hd)
    · subst e5
      exact exec_kill hi e1 (e2.trans hd) e4 hc
    · subst e5
      obtain ⟨k, r, wt⟩ := d0
      have : k = .killApp c a := e2.trans hd
      subst this
      exact absurd ⟨a, r, wt, e1⟩ hk
  · rw [e]; intro e; cases e

theorem freed_run {own : Nat → Nat} {c size : Nat} {ops : List Op} (h : Freed own c (World.init size) ops) :
    (∀ i a d, ((World.init size).run own ops).calls i = some d → d.kind = .killApp c a → d.result ≠ some .error) ∧
    (((World.init size).run own ops).stat c = .stopped → ¬ Cached ((World.init size).run own ops) c) := by
  induction ops using Router.snoc_induction with
  | nil => exact ⟨fun i a d h => (by cases h), fun h => (by cases h)⟩
  | snoc ops op ih =>
    obtain ⟨h1, h2⟩ := freed_snoc h
    obtain ⟨i1, i2⟩ := ih h1
    rw [run_snoc]
    obtain ⟨hi, hone⟩ := inv_run own size ops
    generalize (World.init size).run own ops = w at *
    refine ⟨kills_step hi i1 op h2, ?_⟩
    intro hs
    have hmove := step_stat own w op c
    by_cases hc : w.stat c = .stopped
    · exact step_cached (i2 hc) (fun e => absurd ⟨rfl, hc⟩ (e ▸ h2 : ¬ Keeps w c (.check c))) hc
    · have hmove' : Move w op c .stopped ((w.step own op).appOf c) := hs ▸ hmove
      clear hmove
      generalize ho : (w.step own op).appOf c = o at hmove'
      have hinv := (inv_step hi hone op)
      revert hmove'
      generalize hst : CStat.stopped = s
      intro hmove'
      cases hmove' with
      | same => exact absurd hst.symm hc
      | start e hc => cases hst
      | mark e _ => cases hst
      | record => cases hst
      | refused => cases hst
      | late => cases hst
      | none e _ hn => exact not_cached_none hinv (ho.trans hn)
      | stop => cases hst
      | killed i b r e hi' =>
        cases r with
        | error => exact absurd rfl (i1 i _ _ hi' rfl)
        | ok x =>
          subst e
          show ¬ Cached (w.resume i) c
          unfold World.resume
          rw [hi']
          rintro (⟨cl, hm⟩ | ⟨addr, hm⟩)
          · exact (mem_discard hm).2 rfl
          · exact (mem_erase hm).2 rfl
      | reload e => exact absurd (by cases hc' : w.stat c <;> rw [hc'] at hst <;> first | rfl | cases hst) hc

/-- The cache of clients is one of that size. -/
theorem clients_run (own : Nat → Nat) (size : Nat) (ops : List Op) :
    ∃ h, ((World.init size).run own ops).clients = Utils.Lru.run size h := by
  induction ops using Router.snoc_induction with
  | nil => exact ⟨[], rfl⟩
  | snoc ops op ih =>
    rw [run_snoc]
    generalize (World.init size).run own ops = w at ih
    obtain ⟨h, ih⟩ := ih
    have hstep : ∀ o : Utils.Op Nat Client, w.clients.step o = Utils.Lru.run size (h ++ [o]) := by
      intro o
      rw [ih]
      unfold Utils.Lru.run
      rw [List.foldl_append]
      rfl
    have hget : ∀ c, ∃ h', (w.getClient c).2.clients = Utils.Lru.run size h' := by
      intro c
      unfold World.getClient
      cases hg : w.clients.get c with
      | mk o cs =>
        cases o with
        | some cl =>
          refine ⟨h ++ [.get c], ?_⟩
          rw [← hstep]
          show cs = (w.clients.get c).2
          rw [hg]
        | none =>
          dsimp only
          cases w.appOf c with
          | none => exact ⟨h, ih⟩
          | some a =>
            dsimp only
            cases Utils.find w.addrs c with
            | some addr => exact ⟨_, hstep (.put c ⟨a, addr, c⟩)⟩
            | none =>
              dsimp only
              cases w.report a with
              | none => exact ⟨h, ih⟩
              | some addr => exact ⟨_, hstep (.put c ⟨a, addr, c⟩)⟩
    cases op with
    | start n =>
      unfold World.step World.start
      by_cases hs : w.stat n = .created
      · simp only [if_pos hs]; exact ⟨h, ih⟩
      · simp only [if_neg hs]; exact ⟨h, ih⟩
    | mark n =>
      unfold World.step World.mark
      by_cases hs : w.stat n = .recorded
      · simp only [if_pos hs]; exact ⟨h, ih⟩
      · simp only [if_neg hs]; exact ⟨h, ih⟩
    | startWorker k =>
      unfold World.step World.startWorker
      by_cases hk : w.stat (own k) = .submitted ∧ w.wstat k = .created
      · simp only [if_pos hk]
        have hg' := hget (own k)
        cases hg : w.getClient (own k) with
        | mk o w' =>
          rw [hg] at hg'
          cases o <;> exact hg'
      · simp only [if_neg hk]; exact ⟨h, ih⟩
    | stopWorker k =>
      unfold World.step World.stopWorker
      by_cases hk : w.stat (own k) = .submitted ∧ w.wstat k = .submitted
      · simp only [if_pos hk]
        cases ht : w.contOf k with
        | none => exact ⟨h, ih⟩
        | some t =>
          dsimp only
          have hg' := hget (own k)
          cases hg : w.getClient (own k) with
          | mk o w' =>
            rw [hg] at hg'
            cases o <;> exact hg'
      · simp only [if_neg hk]; exact ⟨h, ih⟩
    | check n =>
      unfold World.step World.check
      by_cases hk : w.stat n = .submitted ∨ w.stat n = .stopping ∨ w.stat n = .stopped
      · simp only [if_pos hk]; exact hget n
      · simp only [if_neg hk]; exact ⟨h, ih⟩
    | stop n =>
      unfold World.step World.stop
      by_cases hs : w.stat n = .created ∨ w.stat n = .submitted
      · simp only [if_pos hs]
        cases ha : w.appOf n <;> exact ⟨h, ih⟩
      · simp only [if_neg hs]; exact ⟨h, ih⟩
    | exec j =>
      unfold World.step World.exec
      dsimp only
      cases hj : w.calls j with
      | none => exact ⟨h, ih⟩
      | some d =>
        obtain ⟨k, r, wt⟩ := d
        cases r with
        | some r => exact ⟨h, ih⟩
        | none =>
          cases k with
          | submit n => exact ⟨h, ih⟩
          | add k cl =>
            dsimp only
            by_cases hr : w.reaches cl = true
            · rw [if_pos hr]; exact ⟨h, ih⟩
            · rw [if_neg hr]; exact ⟨h, ih⟩
          | killCont k cl t =>
            dsimp only
            by_cases hr : w.reaches cl = true
            · rw [if_pos hr]
              cases hx : w.conts t with
              | none => exact ⟨h, ih⟩
              | some x =>
                dsimp only
                by_cases ha : x.app = cl.app
                · rw [if_pos ha]; exact ⟨h, ih⟩
                · rw [if_neg ha]; exact ⟨h, ih⟩
            · rw [if_neg hr]; exact ⟨h, ih⟩
          | killApp n b =>
            dsimp only
            cases hx : w.apps b <;> exact ⟨h, ih⟩
    | fail j =>
      unfold World.step World.fail
      dsimp only
      cases hj : w.calls j with
      | none => exact ⟨h, ih⟩
      | some d =>
        dsimp only
        cases hr : d.result <;> exact ⟨h, ih⟩
    | resume j =>
      unfold World.step World.resume
      dsimp only
      cases hj : w.calls j with
      | none => exact ⟨h, ih⟩
      | some d =>
        obtain ⟨k, r, wt⟩ := d
        cases wt with
        | false => exact ⟨h, ih⟩
        | true =>
          cases r with
          | none => exact ⟨h, ih⟩
          | some r =>
            dsimp only
            cases k with
            | submit n => cases r <;> exact ⟨h, ih⟩
            | add k cl => cases r <;> exact ⟨h, ih⟩
            | killCont k cl t => cases r <;> exact ⟨h, ih⟩
            | killApp n a =>
              cases r with
              | error => exact ⟨h, ih⟩
              | ok x => exact ⟨_, hstep (.discard n)⟩
    | timeout j =>
      unfold World.step World.timeout
      dsimp only
      cases hj : w.calls j with
      | none => exact ⟨h, ih⟩
      | some d =>
        obtain ⟨k, r, wt⟩ := d
        cases wt with
        | false => exact ⟨h, ih⟩
        | true => cases k <;> exact ⟨h, ih⟩
    | restart =>
      refine ⟨[], ?_⟩
      have hm : w.clients.maxSize = size := by
        rw [ih]
        clear ih hstep hget
        induction h using Router.snoc_induction with
        | nil => rfl
        | snoc h o ih =>
          unfold Utils.Lru.run at ih ⊢
          rw [List.foldl_append]
          generalize List.foldl Utils.Lru.step { maxSize := size, cache := [] } h = c at ih
          show (c.step o).maxSize = size
          cases o with
          | get k => unfold Utils.Lru.step Utils.Lru.get; dsimp only; cases Utils.find c.cache k <;> exact ih
          | put k v => unfold Utils.Lru.step Utils.Lru.put; dsimp only; split <;> exact ih
          | discard k => exact ih
      show (⟨w.clients.maxSize, []⟩ : Utils.Lru Nat Client) = ⟨size, []⟩
      rw [hm]
    | runs b addr =>
      unfold World.step World.runs
      dsimp only
      cases hx : w.apps b with
      | none => exact ⟨h, ih⟩
      | some x =>
        dsimp only
        by_cases hp : x.phase = .accepted
        · rw [if_pos hp]; exact ⟨h, ih⟩
        · rw [if_neg hp]; exact ⟨h, ih⟩
    | ends b =>
      unfold World.step World.ends
      dsimp only
      cases hx : w.apps b <;> exact ⟨h, ih⟩

end Verif.Yarn
