import Verif.Yarn.Life
import Verif.Dict
/-
C141: on YARN, requests for the workers of a cluster go to the application of that cluster.
C142: on YARN, nothing of a cluster goes on running after it was stopped.
C143: on YARN, nothing is kept for clusters that have ended.
C144: on YARN, applications are what is configured.
-/
set_option linter.unusedSimpArgs false
set_option linter.unusedVariables false
namespace Verif.Yarn

/-! ### Concrete histories -/

/-- Workers 0 to 9 are of cluster 1, the others of cluster 2. -/
def exOwn (k : Nat) : Nat := if k < 10 then 1 else 2

/-- Two clusters are started, run, and get a worker each; there is room for one client. -/
def exOps : List Op :=
  [.start 1, .start 2, .exec 1, .exec 0, .resume 0, .resume 1, .mark 1, .mark 2, .runs 0 200, .runs 1 100,
   .startWorker 3, .startWorker 13, .exec 2, .exec 3, .resume 2, .resume 3]

/-- The state after that. -/
def exWorld : World := (World.init 1).run exOwn exOps

example : exWorld.appOf 1 = some 1 ∧ exWorld.appOf 2 = some 0 ∧ exWorld.contOf 3 = some 0 ∧ exWorld.contOf 13 = some 1 ∧
    exWorld.conts 0 = some ⟨1, 3, true⟩ ∧ exWorld.conts 1 = some ⟨0, 13, true⟩ ∧
    exWorld.clients.cache = [(2, ⟨0, 200, 2⟩)] ∧ exWorld.addrs = [(1, 100), (2, 200)] := by decide +kernel

/-! ### C141: requests go to the application of the cluster -/

/-- A call for a worker: a container is asked for, or one is killed. -/
def Kind.isFor (k : Kind) (wk : Nat) (cl : Client) : Prop := k = .add wk cl ∨ ∃ t, k = .killCont wk cl t

/-- C141: whatever has happened, a request for a worker goes to the application that was submitted for its cluster and
that is recorded for it, with the credentials of this cluster. -/
theorem C141_own (own : Nat → Nat) (size : Nat) (ops : List Op) (i : Nat) (d : Call) (k : Nat) (cl : Client)
    (hi : ((World.init size).run own ops).calls i = some d) (hk : d.kind.isFor k cl) :
    cl.creds = own k ∧ ((World.init size).run own ops).appOf (own k) = some cl.app ∧
    ∃ app, ((World.init size).run own ops).apps cl.app = some app ∧ app.cluster = own k := by
  have h := (inv_run own size ops).1.calls i d hi
  unfold CallOk at h
  have g : Good ((World.init size).run own ops) (own k) cl := by
    rcases hk with hk | ⟨t, hk⟩ <;> rw [hk] at h <;> exact h.1
  obtain ⟨h1, _, h2, app, h3, h4, _⟩ := g
  exact ⟨h1, h2, app, h3, h4⟩

/-- Where containers come from. -/
theorem conts_back {own : Nat → Nat} {w : World} {op : Op} {t : Nat} {y : Cont} (h : (w.step own op).conts t = some y) :
    (∃ x, w.conts t = some x ∧ x.app = y.app ∧ x.worker = y.worker) ∨
      ∃ i d cl, w.calls i = some d ∧ d.kind = .add y.worker cl ∧ y.app = cl.app := by
  have same : w.conts t = some y → ∃ x, w.conts t = some x ∧ x.app = y.app ∧ x.worker = y.worker :=
    fun e => ⟨y, e, rfl, rfl⟩
  cases op with
  | start c =>
    left
    unfold World.step World.start at h
    by_cases hs : w.stat c = .created
    · simp only [if_pos hs] at h; exact same h
    · simp only [if_neg hs] at h; exact same h
  | mark c =>
    left
    unfold World.step World.mark at h
    by_cases hs : w.stat c = .recorded
    · simp only [if_pos hs] at h; exact same h
    · simp only [if_neg hs] at h; exact same h
  | startWorker k =>
    left
    unfold World.step World.startWorker at h
    by_cases hs : w.stat (own k) = .submitted ∧ w.wstat k = .created
    · simp only [if_pos hs] at h
      obtain ⟨cs, as, e, _⟩ := getClient_shape w (own k)
      cases hg : w.getClient (own k) with
      | mk o w' =>
        rw [hg] at h e
        have e' : w' = _ := e
        rw [e'] at h
        cases o <;> exact same h
    · simp only [if_neg hs] at h; exact same h
  | stopWorker k =>
    left
    unfold World.step World.stopWorker at h
    by_cases hs : w.stat (own k) = .submitted ∧ w.wstat k = .submitted
    · simp only [if_pos hs] at h
      cases ht : w.contOf k with
      | none => rw [ht] at h; exact same h
      | some t =>
        rw [ht] at h
        dsimp only at h
        obtain ⟨cs, as, e, _⟩ := getClient_shape w (own k)
        cases hg : w.getClient (own k) with
        | mk o w' =>
          rw [hg] at h e
          have e' : w' = _ := e
          rw [e'] at h
          cases o <;> exact same h
    · simp only [if_neg hs] at h; exact same h
  | check c =>
    left
    unfold World.step World.check at h
    by_cases hs : w.stat c = .submitted ∨ w.stat c = .stopping ∨ w.stat c = .stopped
    · simp only [if_pos hs] at h
      rw [(getClient_rest w c).2.2.2.1] at h
      exact same h
    · simp only [if_neg hs] at h; exact same h
  | stop c =>
    left
    unfold World.step World.stop at h
    by_cases hs : w.stat c = .created ∨ w.stat c = .submitted
    · simp only [if_pos hs] at h
      cases ha : w.appOf c with
      | none => rw [ha] at h; exact same h
      | some a => rw [ha] at h; exact same h
    · simp only [if_neg hs] at h; exact same h
  | exec j =>
    unfold World.step World.exec at h
    dsimp only at h
    cases hj : w.calls j with
    | none => rw [hj] at h; exact Or.inl (same h)
    | some c =>
      rw [hj] at h
      obtain ⟨k, r, wt⟩ := c
      cases r with
      | some r => exact Or.inl (same h)
      | none =>
        cases k with
        | submit n => exact Or.inl (same h)
        | add k cl =>
          dsimp only at h
          by_cases hr : w.reaches cl = true
          · rw [if_pos hr] at h
            have h' : upd w.conts w.nConts (some ⟨cl.app, k, true⟩) t = some y := h
            by_cases e : t = w.nConts
            · rw [e, upd_same] at h'
              cases h'
              exact Or.inr ⟨j, _, cl, hj, rfl, rfl⟩
            · rw [upd_ne _ _ e] at h'
              exact Or.inl (same h')
          · rw [if_neg hr] at h; exact Or.inl (same h)
        | killCont k cl t' =>
          left
          dsimp only at h
          by_cases hr : w.reaches cl = true
          · rw [if_pos hr] at h
            cases hx : w.conts t' with
            | none => rw [hx] at h; exact same h
            | some x =>
              rw [hx] at h
              dsimp only at h
              by_cases ha : x.app = cl.app
              · rw [if_pos ha] at h
                have h' : upd w.conts t' (some { x with alive := false }) t = some y := h
                by_cases e : t = t'
                · subst e
                  rw [upd_same] at h'
                  cases h'
                  exact ⟨x, hx, rfl, rfl⟩
                · rw [upd_ne _ _ e] at h'
                  exact same h'
              · rw [if_neg ha] at h; exact same h
          · rw [if_neg hr] at h; exact same h
        | killApp n b =>
          left
          dsimp only at h
          cases hx : w.apps b with
          | none => rw [hx] at h; exact same h
          | some x => rw [hx] at h; exact same h
  | fail j =>
    left
    unfold World.step World.fail at h
    dsimp only at h
    cases hj : w.calls j with
    | none => rw [hj] at h; exact same h
    | some c =>
      rw [hj] at h
      dsimp only at h
      cases hr : c.result with
      | some r => rw [hr] at h; exact same h
      | none => rw [hr] at h; exact same h
  | resume j =>
    left
    unfold World.step World.resume at h
    dsimp only at h
    cases hj : w.calls j with
    | none => rw [hj] at h; exact same h
    | some c =>
      rw [hj] at h
      obtain ⟨k, r, wt⟩ := c
      cases wt with
      | false => exact same h
      | true =>
        cases r with
        | none => exact same h
        | some r =>
          dsimp only at h
          cases k <;> cases r <;> exact same h
  | timeout j =>
    left
    unfold World.step World.timeout at h
    dsimp only at h
    cases hj : w.calls j with
    | none => rw [hj] at h; exact same h
    | some c =>
      rw [hj] at h
      obtain ⟨k, r, wt⟩ := c
      cases wt with
      | false => exact same h
      | true => cases k <;> exact same h
  | restart => exact Or.inl (same h)
  | runs b addr =>
    left
    unfold World.step World.runs at h
    dsimp only at h
    cases hx : w.apps b with
    | none => rw [hx] at h; exact same h
    | some x =>
      rw [hx] at h
      dsimp only at h
      by_cases hp : x.phase = .accepted
      · rw [if_pos hp] at h; exact same h
      · rw [if_neg hp] at h; exact same h
  | ends b =>
    left
    unfold World.step World.ends at h
    dsimp only at h
    cases hb : w.apps b with
    | none => rw [hb] at h; exact same h
    | some app =>
      rw [hb] at h
      have h' : (w.conts t).map (fun t => if t.app = b then { t with alive := false } else t) = some y := h
      cases hx : w.conts t with
      | none => rw [hx] at h'; cases h'
      | some x =>
        rw [hx] at h'
        have h'' : (if x.app = b then { x with alive := false } else x) = y := Option.some.inj h'
        subst h''
        refine ⟨x, rfl, ?_, ?_⟩
        · by_cases e : x.app = b <;> simp [e]
        · by_cases e : x.app = b <;> simp [e]

/-- The application of a cluster whose start is over stays the same. -/
theorem settled_step {own : Nat → Nat} {w : World} (hi : Inv own w) (op : Op) {c : Nat} (h : Settled w c) :
    Settled (w.step own op) c ∧ (w.step own op).appOf c = w.appOf c := by
  have hm := step_stat own w op c
  unfold Settled at h ⊢
  generalize (w.step own op).stat c = s at hm
  generalize (w.step own op).appOf c = o at hm
  cases hm with
  | same => exact ⟨h, rfl⟩
  | start e hc => rw [hc] at h; rcases h with h | h | h <;> cases h
  | mark e hc => exact ⟨Or.inl rfl, rfl⟩
  | record i a e hi' => rw [submit_starting hi hi' rfl rfl] at h; rcases h with h | h | h <;> cases h
  | refused => exact ⟨Or.inl rfl, rfl⟩
  | late => exact ⟨Or.inl rfl, rfl⟩
  | none => exact ⟨Or.inr (Or.inr rfl), rfl⟩
  | stop => exact ⟨Or.inr (Or.inl rfl), rfl⟩
  | killed => exact ⟨Or.inr (Or.inr rfl), rfl⟩
  | reload e => exact ⟨by rcases h with h | h | h <;> rw [h] <;> simp [CStat.reload], rfl⟩

/-- Every container is in the application that is recorded for its cluster. -/
theorem conts_recorded (own : Nat → Nat) (size : Nat) (ops : List Op) (t : Nat) (x : Cont)
    (h : ((World.init size).run own ops).conts t = some x) :
    Settled ((World.init size).run own ops) (own x.worker) ∧
    ((World.init size).run own ops).appOf (own x.worker) = some x.app := by
  induction ops using Router.snoc_induction generalizing x with
  | nil => cases h
  | snoc ops op ih =>
    rw [run_snoc] at h ⊢
    have hi := (inv_run own size ops).1
    have key : Settled ((World.init size).run own ops) (own x.worker) ∧
        ((World.init size).run own ops).appOf (own x.worker) = some x.app := by
      rcases conts_back h with ⟨x0, e1, e2, e3⟩ | ⟨i, d, cl, e1, e2, e3⟩
      · have := ih x0 e1
        rw [e2, e3] at this
        exact this
      · have hok := hi.calls i d e1
        unfold CallOk at hok
        rw [e2] at hok
        rw [e3]
        exact ⟨hok.1.2.1, hok.1.2.2.1⟩
    obtain ⟨s1, s2⟩ := settled_step hi op key.1
    exact ⟨s1, s2.trans key.2⟩

/-- C141: every container runs in the application that was submitted for the cluster of its worker, and that is recorded
for it. -/
theorem C141_containers (own : Nat → Nat) (size : Nat) (ops : List Op) (t : Nat) (x : Cont)
    (h : ((World.init size).run own ops).conts t = some x) :
    ((World.init size).run own ops).appOf (own x.worker) = some x.app ∧
    ∃ app, ((World.init size).run own ops).apps x.app = some app ∧ app.cluster = own x.worker := by
  obtain ⟨app, h1, h2, _⟩ := (inv_run own size ops).1.conts t x h
  exact ⟨(conts_recorded own size ops t x h).2, app, h1, h2⟩

/-- A call that kills a container of a worker was made because this worker was to be stopped. -/
theorem killCont_asked (own : Nat → Nat) (size : Nat) (ops : List Op) (i : Nat) (d : Call) (k t : Nat) (cl : Client)
    (hi : ((World.init size).run own ops).calls i = some d) (hk : d.kind = .killCont k cl t) : Op.stopWorker k ∈ ops := by
  induction ops using Router.snoc_induction generalizing i d with
  | nil => cases hi
  | snoc ops op ih =>
    rw [run_snoc] at hi
    rcases step_calls hi with ⟨d0, e1, e2, _⟩ | ⟨_, _, _, e4⟩
    · exact List.mem_append_left _ (ih i d0 e1 (e2.trans hk))
    · rw [hk] at e4
      rw [e4.1]
      exact List.mem_append_right _ (List.mem_singleton.mpr rfl)

/-- C141: a container ends only with its application, or because its own worker was to be stopped. -/
theorem C141_ended_by (own : Nat → Nat) (size : Nat) (ops : List Op) (op : Op) (t : Nat) (x y : Cont)
    (hx : ((World.init size).run own ops).conts t = some x) (ha : x.alive = true)
    (hy : ((World.init size).run own (ops ++ [op])).conts t = some y) (hd : y.alive = false) :
    op = .ends x.app ∨ Op.stopWorker x.worker ∈ ops := by
  rw [run_snoc] at hy
  rcases step_conts hx ha hy hd with h | ⟨i, d, k, cl, h1, h2, h3, h4⟩
  · exact Or.inl h
  · right
    have hok := (inv_run own size ops).1.calls i d h2
    unfold CallOk at hok
    rw [h3] at hok
    obtain ⟨_, x', e1, e2⟩ := hok
    rw [hx] at e1
    cases e1
    rw [e2]
    exact killCont_asked own size ops i d k t cl h2 h3

/-- Containers do not vanish from what YARN knows. -/
example : ((World.init 1).run exOwn (exOps ++ [.stopWorker 3, .exec 4])).conts 0 = some ⟨1, 3, false⟩ ∧
    ((World.init 1).run exOwn (exOps ++ [.stopWorker 3, .exec 4])).conts 1 = some ⟨0, 13, true⟩ := by decide +kernel

/-- C141: while the application runs, a request for a container gets one for this worker in this application. -/
theorem C141_reaches (own : Nat → Nat) (size : Nat) (ops : List Op) (i : Nat) (wt : Bool) (k : Nat) (cl : Client)
    (hi : ((World.init size).run own ops).calls i = some ⟨.add k cl, none, wt⟩) (app : App) (addr : Nat)
    (ha : ((World.init size).run own ops).apps cl.app = some app) (hr : app.phase = .running addr) :
    ∃ t, ((World.init size).run own (ops ++ [.exec i])).calls i = some ⟨.add k cl, some (.ok t), wt⟩ ∧
      ((World.init size).run own ops).conts t = none ∧
      ((World.init size).run own (ops ++ [.exec i])).conts t = some ⟨cl.app, k, true⟩ := by
  rw [run_snoc]
  have hinv := (inv_run own size ops).1
  generalize (World.init size).run own ops = w at *
  obtain ⟨⟨h1, _, _, app', e1, e2, e3⟩, _⟩ := hinv.calls i _ hi
  rw [ha] at e1
  cases e1
  have hreach : w.reaches cl = true := by
    unfold World.reaches
    rw [ha]
    rcases e3 with e3 | e3
    · simp [e3, e2, h1]
    · rw [hr] at e3; cases e3
  refine ⟨w.nConts, ?_, ?_, ?_⟩
  · show (w.exec i).calls i = _
    unfold World.exec
    rw [hi]
    dsimp only
    rw [if_pos hreach]
    exact upd_same _ _ _
  · cases hn : w.conts w.nConts with
    | none => rfl
    | some x => exact absurd (hinv.freshCont _ x hn) (by omega)
  · show (w.exec i).conts _ = _
    unfold World.exec
    rw [hi]
    dsimp only
    rw [if_pos hreach]
    exact upd_same _ _ _

/-- C141: while the application runs, a request to kill the container of a worker does. -/
theorem C141_kills (own : Nat → Nat) (size : Nat) (ops : List Op) (i : Nat) (wt : Bool) (k t : Nat) (cl : Client)
    (hi : ((World.init size).run own ops).calls i = some ⟨.killCont k cl t, none, wt⟩) (app : App) (addr : Nat)
    (ha : ((World.init size).run own ops).apps cl.app = some app) (hr : app.phase = .running addr) :
    ∃ y, ((World.init size).run own (ops ++ [.exec i])).conts t = some y ∧ y.worker = k ∧ y.alive = false := by
  rw [run_snoc]
  have hinv := (inv_run own size ops).1
  have hrec := conts_recorded own size ops t
  generalize (World.init size).run own ops = w at *
  obtain ⟨⟨h1, _, h2, app', e1, e2, e3⟩, x, hx, f2⟩ := hinv.calls i _ hi
  rw [ha] at e1
  cases e1
  have f2 : x.worker = k := f2
  have hxa : x.app = cl.app := by
    have h2 : w.appOf (own k) = some cl.app := h2
    have := (hrec x hx).2
    rw [f2, h2] at this
    exact (Option.some.inj this).symm
  have hreach : w.reaches cl = true := by
    unfold World.reaches
    rw [ha]
    rcases e3 with e3 | e3
    · simp [e3, e2, h1]
    · rw [hr] at e3; cases e3
  refine ⟨{ x with alive := false }, ?_, f2, rfl⟩
  · show (w.exec i).conts _ = _
    unfold World.exec
    rw [hi]
    dsimp only
    rw [if_pos hreach, hx]
    dsimp only
    rw [if_pos hxa]
    exact upd_same _ _ _

/-- The hypotheses of C141 are met after restarts and evictions, too. -/
example : ((World.init 1).run exOwn (exOps ++ [.restart, .startWorker 14, .check 1, .startWorker 15])).calls 5 =
      some ⟨.add 15 ⟨0, 200, 2⟩, none, true⟩ ∧
    ((World.init 1).run exOwn (exOps ++ [.restart, .startWorker 14, .check 1, .startWorker 15])).apps 0 =
      some ⟨2, .running 200, false⟩ ∧
    ((World.init 1).run exOwn (exOps ++ [.stopWorker 3])).calls 4 = some ⟨.killCont 3 ⟨1, 100, 1⟩ 0, none, true⟩ := by
  decide +kernel

/-! ### C142: nothing goes on running after the stop -/

/-- C142: when a cluster has been stopped, YARN has been told to end every application that was submitted for it. -/
def C142_full : Prop :=
  ∀ (own : Nat → Nat) (size : Nat) (ops : List Op) (c : Nat), ((World.init size).run own ops).stat c = .stopped →
    ∀ a app, ((World.init size).run own ops).apps a = some app → app.cluster = c → app.told = true

/-- The submission takes longer than the gateway waits, and the cluster is stopped; then YARN accepts it. -/
theorem C142_late_violated : ¬ C142_full := by
  intro h
  have := h exOwn 1 [.start 1, .timeout 0, .stop 1, .exec 0, .runs 0 100] 1 (by decide +kernel) 0 ⟨1, .running 100, false⟩
    (by decide +kernel) rfl
  exact absurd this (by decide)

/-- The gateway is killed when the application has been submitted. It submits a second one, and only that is ended. -/
theorem C142_crash_violated : ¬ C142_full := by
  intro h
  have := h exOwn 1 [.start 1, .exec 0, .restart, .start 1, .exec 1, .resume 1, .mark 1, .stop 1, .exec 2, .resume 2,
    .runs 0 100] 1 (by decide +kernel) 0 ⟨1, .running 100, false⟩ (by decide +kernel) rfl
  exact absurd this (by decide)

/-- The same, where the id of the application was in the database already. -/
theorem C142_recorded_violated : ¬ C142_full := by
  intro h
  have := h exOwn 1 [.start 1, .exec 0, .resume 0, .restart, .start 1, .exec 1, .resume 1, .mark 1, .stop 1, .exec 2,
    .resume 2, .runs 0 100] 1 (by decide +kernel) 0 ⟨1, .running 100, false⟩ (by decide +kernel) rfl
  exact absurd this (by decide)

/-- YARN is not available when the cluster is stopped. -/
theorem C142_failed_violated : ¬ C142_full := by
  intro h
  have := h exOwn 1 (exOps ++ [.stop 1, .fail 4, .resume 4]) 1 (by decide +kernel) 1 ⟨1, .running 100, false⟩
    (by decide +kernel) rfl
  exact absurd this (by decide)

/-- C142 (partial: for clusters whose submission did not take too long, that were not being started when the gateway was
killed, and where no request to end an application failed): when a cluster has been stopped, YARN has been told to end
every application that was submitted for it. -/
theorem C142_told_partial (own : Nat → Nat) (size : Nat) (ops : List Op) (c : Nat)
    (hu : Undisturbed own c (World.init size) ops) (hs : ((World.init size).run own ops).stat c = .stopped) (a : Nat)
    (app : App) (ha : ((World.init size).run own ops).apps a = some app) (hc : app.cluster = c) : app.told = true := by
  have hl := life_run hu
  have hi := (inv_run own size ops).1
  rcases hl.apps a app ha hc with h | ⟨i, h⟩
  · exact hl.told hs a app h ha
  · have := submit_starting hi h rfl rfl
    rw [hs] at this
    cases this

/-- C142: with an application, all its containers have ended. -/
theorem C142_containers (own : Nat → Nat) (size : Nat) (ops : List Op) (a : Nat) (app : App)
    (ha : ((World.init size).run own ops).apps a = some app) (he : app.phase = .ended) (t : Nat) (x : Cont)
    (hx : ((World.init size).run own ops).conts t = some x) (hxa : x.app = a) : x.alive = false := by
  obtain ⟨app', h1, _, h3⟩ := (inv_run own size ops).1.conts t x hx
  rw [hxa, ha] at h1
  cases h1
  exact h3 he

/-- What tells an application to end. -/
theorem step_told {own : Nat → Nat} {w : World} {op : Op} {a : Nat} {app : App} (h : (w.step own op).apps a = some app)
    (ht : app.told = true) : (∃ app0, w.apps a = some app0 ∧ app0.told = true) ∨
      ∃ i d n, op = .exec i ∧ w.calls i = some d ∧ d.kind = .killApp n a := by
  have same : w.apps a = some app → ∃ app0, w.apps a = some app0 ∧ app0.told = true := fun e => ⟨app, e, ht⟩
  cases op with
  | start c =>
    left
    unfold World.step World.start at h
    by_cases hs : w.stat c = .created
    · simp only [if_pos hs] at h; exact same h
    · simp only [if_neg hs] at h; exact same h
  | mark c =>
    left
    unfold World.step World.mark at h
    by_cases hs : w.stat c = .recorded
    · simp only [if_pos hs] at h; exact same h
    · simp only [if_neg hs] at h; exact same h
  | startWorker k =>
    left
    unfold World.step World.startWorker at h
    by_cases hs : w.stat (own k) = .submitted ∧ w.wstat k = .created
    · simp only [if_pos hs] at h
      obtain ⟨cs, as, e, _⟩ := getClient_shape w (own k)
      cases hg : w.getClient (own k) with
      | mk o w' =>
        rw [hg] at h e
        have e' : w' = _ := e
        rw [e'] at h
        cases o <;> exact same h
    · simp only [if_neg hs] at h; exact same h
  | stopWorker k =>
    left
    unfold World.step World.stopWorker at h
    by_cases hs : w.stat (own k) = .submitted ∧ w.wstat k = .submitted
    · simp only [if_pos hs] at h
      cases ht : w.contOf k with
      | none => rw [ht] at h; exact same h
      | some t =>
        rw [ht] at h
        dsimp only at h
        obtain ⟨cs, as, e, _⟩ := getClient_shape w (own k)
        cases hg : w.getClient (own k) with
        | mk o w' =>
          rw [hg] at h e
          have e' : w' = _ := e
          rw [e'] at h
          cases o <;> exact same h
    · simp only [if_neg hs] at h; exact same h
  | check c =>
    left
    unfold World.step World.check at h
    by_cases hs : w.stat c = .submitted ∨ w.stat c = .stopping ∨ w.stat c = .stopped
    · simp only [if_pos hs] at h
      rw [(getClient_rest w c).2.2.1] at h
      exact same h
    · simp only [if_neg hs] at h; exact same h
  | stop c =>
    left
    unfold World.step World.stop at h
    by_cases hs : w.stat c = .created ∨ w.stat c = .submitted
    · simp only [if_pos hs] at h
      cases ha : w.appOf c with
      | none => rw [ha] at h; exact same h
      | some a => rw [ha] at h; exact same h
    · simp only [if_neg hs] at h; exact same h
  | exec j =>
    unfold World.step World.exec at h
    dsimp only at h
    cases hj : w.calls j with
    | none => rw [hj] at h; exact Or.inl (same h)
    | some c =>
      rw [hj] at h
      obtain ⟨k, r, wt⟩ := c
      cases r with
      | some r => exact Or.inl (same h)
      | none =>
        cases k with
        | submit n =>
          have h' : upd w.apps w.nApps (some ⟨n, .accepted, false⟩) a = some app := h
          by_cases e : a = w.nApps
          · rw [e, upd_same] at h'
            cases h'
            cases ht
          · rw [upd_ne _ _ e] at h'
            exact Or.inl (same h')
        | add k cl =>
          dsimp only at h
          by_cases hr : w.reaches cl = true
          · rw [if_pos hr] at h; exact Or.inl (same h)
          · rw [if_neg hr] at h; exact Or.inl (same h)
        | killCont k cl t =>
          left
          dsimp only at h
          by_cases hr : w.reaches cl = true
          · rw [if_pos hr] at h
            cases hx : w.conts t with
            | none => rw [hx] at h; exact same h
            | some x =>
              rw [hx] at h
              dsimp only at h
              by_cases ha : x.app = cl.app
              · rw [if_pos ha] at h; exact same h
              · rw [if_neg ha] at h; exact same h
          · rw [if_neg hr] at h; exact same h
        | killApp n b =>
          dsimp only at h
          cases hx : w.apps b with
          | none => rw [hx] at h; exact Or.inl (same h)
          | some x =>
            rw [hx] at h
            have h' : upd w.apps b (some { x with told := true }) a = some app := h
            by_cases e : a = b
            · subst e
              exact Or.inr ⟨j, _, n, rfl, hj, rfl⟩
            · rw [upd_ne _ _ e] at h'
              exact Or.inl (same h')
  | fail j =>
    left
    unfold World.step World.fail at h
    dsimp only at h
    cases hj : w.calls j with
    | none => rw [hj] at h; exact same h
    | some c =>
      rw [hj] at h
      dsimp only at h
      cases hr : c.result with
      | some r => rw [hr] at h; exact same h
      | none => rw [hr] at h; exact same h
  | resume j =>
    left
    unfold World.step World.resume at h
    dsimp only at h
    cases hj : w.calls j with
    | none => rw [hj] at h; exact same h
    | some c =>
      rw [hj] at h
      obtain ⟨k, r, wt⟩ := c
      cases wt with
      | false => exact same h
      | true =>
        cases r with
        | none => exact same h
        | some r =>
          dsimp only at h
          cases k <;> cases r <;> exact same h
  | timeout j =>
    left
    unfold World.step World.timeout at h
    dsimp only at h
    cases hj : w.calls j with
    | none => rw [hj] at h; exact same h
    | some c =>
      rw [hj] at h
      obtain ⟨k, r, wt⟩ := c
      cases wt with
      | false => exact same h
      | true => cases k <;> exact same h
  | restart => exact Or.inl (same h)
  | runs b addr =>
    left
    unfold World.step World.runs at h
    dsimp only at h
    cases hx : w.apps b with
    | none => rw [hx] at h; exact same h
    | some x =>
      rw [hx] at h
      dsimp only at h
      by_cases hp : x.phase = .accepted
      · rw [if_pos hp] at h
        have h' : upd w.apps b (some { x with phase := .running addr }) a = some app := h
        by_cases e : a = b
        · subst e; rw [upd_same] at h'; cases h'; exact ⟨x, hx, ht⟩
        · rw [upd_ne _ _ e] at h'; exact same h'
      · rw [if_neg hp] at h; exact same h
  | ends b =>
    left
    unfold World.step World.ends at h
    dsimp only at h
    cases hx : w.apps b with
    | none => rw [hx] at h; exact same h
    | some x =>
      rw [hx] at h
      have h' : upd w.apps b (some { x with phase := .ended }) a = some app := h
      by_cases e : a = b
      · subst e; rw [upd_same] at h'; cases h'; exact ⟨x, hx, ht⟩
      · rw [upd_ne _ _ e] at h'; exact same h'

theorem killApp_asked (own : Nat → Nat) (size : Nat) (ops : List Op) (i : Nat) (d : Call) (n a : Nat)
    (hi : ((World.init size).run own ops).calls i = some d) (hk : d.kind = .killApp n a) : Op.stop n ∈ ops := by
  induction ops using Router.snoc_induction generalizing i d with
  | nil => cases hi
  | snoc ops op ih =>
    rw [run_snoc] at hi
    rcases step_calls hi with ⟨d0, e1, e2, _⟩ | ⟨_, _, _, e4⟩
    · exact List.mem_append_left _ (ih i d0 e1 (e2.trans hk))
    · rw [hk] at e4
      rw [e4.1]
      exact List.mem_append_right _ (List.mem_singleton.mpr rfl)

/-- C142: YARN is told to end an application only when its own cluster is to be stopped. -/
theorem C142_only_own (own : Nat → Nat) (size : Nat) (ops : List Op) (a : Nat) (app : App)
    (ha : ((World.init size).run own ops).apps a = some app) (ht : app.told = true) : Op.stop app.cluster ∈ ops := by
  induction ops using Router.snoc_induction generalizing app with
  | nil => cases ha
  | snoc ops op ih =>
    rw [run_snoc] at ha
    have hi := (inv_run own size ops).1
    rcases step_told ha ht with ⟨app0, e1, e2⟩ | ⟨i, d, n, e1, e2, e3⟩
    · have hc : app0.cluster = app.cluster := by
        rcases step_apps ha with ⟨app1, f1, f2, _⟩ | ⟨f1, _⟩
        · rw [e1] at f1; cases f1; exact f2
        · exact absurd (hi.freshApp a app0 e1) (by omega)
      rw [← hc]
      exact List.mem_append_left _ (ih app0 e1 e2)
    · have hok := hi.calls i d e2
      unfold CallOk at hok
      rw [e3] at hok
      obtain ⟨app0, g1, g2⟩ := hi.appOf n a hok.2.1
      have hc : app0.cluster = app.cluster := by
        rcases step_apps ha with ⟨app1, f1, f2, _⟩ | ⟨f1, _⟩
        · rw [g1] at f1; cases f1; exact f2
        · exact absurd (hi.freshApp a app0 g1) (by omega)
      rw [← hc, g2]
      exact List.mem_append_left _ (killApp_asked own size ops i d n a e2 e3)

/-- A stop that is repeated after the gateway was killed in the middle of it. -/
def exStop : List Op := exOps ++ [.stop 1, .restart, .stop 1, .exec 5, .resume 5]

/-- The hypotheses of C142 are met. -/
example : Undisturbed exOwn 1 (World.init 1) exStop ∧ ((World.init 1).run exOwn exStop).stat 1 = .stopped ∧
    ((World.init 1).run exOwn exStop).apps 1 = some ⟨1, .running 100, true⟩ ∧
    ((World.init 1).run exOwn exStop).apps 0 = some ⟨2, .running 200, false⟩ ∧
    ((World.init 1).run exOwn (exStop ++ [.ends 1])).apps 1 = some ⟨1, .ended, true⟩ ∧
    ((World.init 1).run exOwn (exStop ++ [.ends 1])).conts 0 = some ⟨1, 3, false⟩ ∧
    ((World.init 1).run exOwn (exStop ++ [.ends 1])).conts 1 = some ⟨0, 13, true⟩ := by
  refine ⟨?_, by decide +kernel, by decide +kernel, by decide +kernel, by decide +kernel, by decide +kernel,
    by decide +kernel⟩
  unfold exStop exOps
  simp only [List.cons_append, List.nil_append]
  refine ⟨id, id, id, id, id, id, id, id, id, id, id, id, id, id, id, id, id, ?_, id, id, id, trivial⟩
  intro h
  rcases h with h | h
  · exact absurd h (by decide +kernel)
  · exact absurd h (by decide +kernel)

/-! ### C143: nothing is kept for clusters that have ended -/

/-- C143: there are never more clients than configured. -/
theorem C143_bounded (own : Nat → Nat) (size : Nat) (ops : List Op) :
    ((World.init size).run own ops).clients.cache.length ≤ size := by
  obtain ⟨h, e⟩ := clients_run own size ops
  rw [e]
  exact (Utils.C46_bounded size h).1

/-- C143: for a cluster that has stopped neither a client nor an address is kept. -/
def C143_full : Prop :=
  ∀ (own : Nat → Nat) (size : Nat) (ops : List Op) (c : Nat), ((World.init size).run own ops).stat c = .stopped →
    (∀ cl, (c, cl) ∉ ((World.init size).run own ops).clients.cache) ∧
    (∀ addr, (c, addr) ∉ ((World.init size).run own ops).addrs)

/-- The check of the workers of several clusters goes on while one of them is stopped, and gets a client for it. -/
theorem C143_check_violated : ¬ C143_full := by
  intro h
  have := (h exOwn 1 (exOps ++ [.stop 1, .exec 4, .resume 4, .check 1]) 1 (by decide +kernel)).2 100
  exact this (by decide +kernel)

/-- YARN is not available when the cluster is stopped. -/
theorem C143_failed_violated : ¬ C143_full := by
  intro h
  have := (h exOwn 1 (exOps ++ [.stop 1, .fail 4, .resume 4]) 1 (by decide +kernel)).2 100
  exact this (by decide +kernel)

/-- C143 (partial: where no check of workers goes on with a stopped cluster, and no request to end its application
failed): for a cluster that has stopped neither a client nor an address is kept. -/
theorem C143_freed_partial (own : Nat → Nat) (size : Nat) (ops : List Op) (c : Nat)
    (hf : Freed own c (World.init size) ops) (hs : ((World.init size).run own ops).stat c = .stopped) :
    (∀ cl, (c, cl) ∉ ((World.init size).run own ops).clients.cache) ∧
    (∀ addr, (c, addr) ∉ ((World.init size).run own ops).addrs) := by
  have h := (freed_run hf).2 hs
  exact ⟨fun cl hm => h (Or.inl ⟨cl, hm⟩), fun addr hm => h (Or.inr ⟨addr, hm⟩)⟩

/-- The hypotheses of C143 are met, where clients had been kept before. -/
example : Freed exOwn 2 (World.init 1) (exOps ++ [.check 2, .stop 2, .exec 4, .resume 4]) ∧
    ((World.init 1).run exOwn (exOps ++ [.check 2, .stop 2, .exec 4, .resume 4])).stat 2 = .stopped ∧
    (2, ⟨0, 200, 2⟩) ∈ ((World.init 1).run exOwn (exOps ++ [.check 2, .stop 2, .exec 4])).clients.cache := by
  refine ⟨?_, by decide +kernel, by decide +kernel⟩
  unfold exOps
  simp only [List.cons_append, List.nil_append]
  refine ⟨id, id, id, id, id, id, id, id, id, id, id, id, id, id, id, id, ?_, id, id, id, trivial⟩
  intro h
  exact absurd h.2 (by decide +kernel)

/-! ### C144: applications are what is configured -/

/-- The number at the start of a text. -/
def numberOf (s : Str) : Nat := (s.takeWhile Char.isDigit).foldl (fun n c => 10 * n + (c.toNat - '0'.toNat)) 0

theorem number_bytes (n : Nat) : numberOf (bytes n) = n ∧ (bytes n).dropWhile Char.isDigit = " b".toList := by
  have hd : ∀ c ∈ Nat.toDigits 10 n, c.isDigit = true := fun c hc => Nat.isDigit_of_mem_toDigits (by decide) (by decide) hc
  have ht : ∀ (l r : List Char), (∀ c ∈ l, c.isDigit = true) → (l ++ ' ' :: r).takeWhile Char.isDigit = l ∧
      (l ++ ' ' :: r).dropWhile Char.isDigit = ' ' :: r := by
    intro l r hl
    induction l with
    | nil => exact ⟨by simp [List.takeWhile], by simp [List.dropWhile]⟩
    | cons c l ih =>
      have hc := hl c List.mem_cons_self
      obtain ⟨i1, i2⟩ := ih (fun c hc => hl c (List.mem_cons_of_mem _ hc))
      constructor
      · rw [List.cons_append, List.takeWhile_cons, if_pos hc, i1]
      · rw [List.cons_append, List.dropWhile_cons, if_pos hc, i2]
  have hb : bytes n = Nat.toDigits 10 n ++ ' ' :: ['b'] := rfl
  obtain ⟨h1, h2⟩ := ht (Nat.toDigits 10 n) ['b'] hd
  constructor
  · unfold numberOf
    rw [hb, h1]
    have := Nat.ofDigitChars_toDigits (b := 10) (n := n) (by decide) (by decide)
    rw [Nat.ofDigitChars_eq_foldl] at this
    exact this
  · rw [hb, h2]; rfl

theorem files_lookup (f : List (Str × Str) → Option FileSpec) (l r : List (Str × FileSpec)) (h : filesOf f l = some r) (k : Str) :
    lookup r k = (match lookup l k with
      | some (.path p) => some (.path p)
      | some (.opts d) => f d
      | none => none) := by
  induction l generalizing r with
  | nil => cases h; rfl
  | cons e l ih =>
    obtain ⟨n, v⟩ := e
    cases v with
    | path p =>
      unfold filesOf at h
      cases hr : filesOf f l with
      | none => rw [hr] at h; cases h
      | some r' =>
        rw [hr] at h
        cases h
        rw [lookup_cons, lookup_cons]
        by_cases hk : n = k
        · rw [if_pos hk, if_pos hk]
        · rw [if_neg hk, if_neg hk]; exact ih r' hr
    | opts d =>
      unfold filesOf at h
      cases hd : f d with
      | none => rw [hd] at h; cases h
      | some x =>
        cases hr : filesOf f l with
        | none => rw [hd, hr] at h; cases h
        | some r' =>
          rw [hd, hr] at h
          cases h
          rw [lookup_cons, lookup_cons]
          by_cases hk : n = k
          · rw [if_pos hk, if_pos hk]; exact hd.symm
          · rw [if_neg hk, if_neg hk]; exact ih r' hr

theorem files_none (f : List (Str × Str) → Option FileSpec) (l : List (Str × FileSpec)) :
    filesOf f l = none ↔ ∃ k d, (k, FileSpec.opts d) ∈ l ∧ f d = none := by
  induction l with
  | nil => exact ⟨fun h => (by cases h), fun ⟨k, d, h, _⟩ => absurd h List.not_mem_nil⟩
  | cons e l ih =>
    obtain ⟨n, v⟩ := e
    cases v with
    | path p =>
      unfold filesOf
      rw [Option.map_eq_none_iff, ih]
      constructor
      · rintro ⟨k, d, h1, h2⟩; exact ⟨k, d, List.mem_cons_of_mem _ h1, h2⟩
      · rintro ⟨k, d, h1, h2⟩
        rcases List.mem_cons.mp h1 with h1 | h1
        · cases h1
        · exact ⟨k, d, h1, h2⟩
    | opts d =>
      unfold filesOf
      cases hd : f d with
      | none => exact ⟨fun _ => ⟨n, d, List.mem_cons_self, hd⟩, fun _ => rfl⟩
      | some x =>
        cases hr : filesOf f l with
        | none =>
          obtain ⟨k, d', h1, h2⟩ := ih.mp hr
          exact ⟨fun _ => ⟨k, d', List.mem_cons_of_mem _ h1, h2⟩, fun _ => rfl⟩
        | some r =>
          refine ⟨fun h => (by cases h), ?_⟩
          rintro ⟨k, d', h1, h2⟩
          rcases List.mem_cons.mp h1 with h1 | h1
          · cases h1; rw [hd] at h2; cases h2
          · have := ih.mpr ⟨k, d', h1, h2⟩
            rw [hr] at this
            cases this

/-- C144: the application of a cluster runs as its user in the configured queue, with the configured resources for its
scheduler and for its workers, of which there are none at first and which YARN does not restart by itself. -/
theorem C144_resources (f : List (Str × Str) → Option FileSpec) (g : Given) (cert key : Str) (s : Spec)
    (h : buildSpec f g cert key = some s) :
    s.user = g.user ∧ s.queue = g.conf.queue ∧ s.instances = 0 ∧ s.maxRestarts = 0 ∧
    s.master.vcores = g.conf.schedulerCores ∧ s.worker.vcores = g.conf.workerCores ∧
    numberOf s.master.memory = g.conf.schedulerMemory ∧ numberOf s.worker.memory = g.conf.workerMemory ∧
    s.master.memory.dropWhile Char.isDigit = " b".toList ∧ s.worker.memory.dropWhile Char.isDigit = " b".toList ∧
    s.master.script = Batch.yarnSchedulerScript g.sys g.conf ∧ s.worker.script = Batch.yarnWorkerScript g.sys g.conf := by
  unfold buildSpec at h
  cases ha : allFiles f g cert key with
  | none => rw [ha] at h; cases h
  | some files =>
    rw [ha] at h
    cases h
    exact ⟨rfl, rfl, rfl, rfl, rfl, rfl, (number_bytes _).1, (number_bytes _).1, (number_bytes _).2, (number_bytes _).2,
      rfl, rfl⟩

/-- What is configured for a name, with options turned into a file. -/
def configured (f : List (Str × Str) → Option FileSpec) (l : List (Str × FileSpec)) (name : Str) : Option FileSpec :=
  match lookup l name with
  | some (.path p) => some (.path p)
  | some (.opts d) => f d
  | none => none

/-- C144: schedulers and workers get the credentials of their cluster under the names that their environment refers to,
whatever files are configured, and all other files as they are configured. -/
theorem C144_files (f : List (Str × Str) → Option FileSpec) (g : Given) (cert key : Str) (s : Spec)
    (h : buildSpec f g cert key = some s) (v : Service) (hv : v = s.master ∨ v = s.worker) :
    lookup v.files "dask.crt".toList = some (.path cert) ∧ lookup v.files "dask.pem".toList = some (.path key) ∧
    ∀ name, name ≠ "dask.crt".toList → name ≠ "dask.pem".toList → lookup v.files name = configured f g.localize name := by
  unfold buildSpec at h
  cases ha : allFiles f g cert key with
  | none => rw [ha] at h; cases h
  | some files =>
    rw [ha] at h
    cases h
    have hvf : v.files = files := by rcases hv with e | e <;> rw [e]
    rw [hvf]
    unfold allFiles at ha
    cases hf : filesOf f g.localize with
    | none => rw [hf] at ha; cases ha
    | some r =>
      rw [hf] at ha
      have ha' := Option.some.inj ha
      subst ha'
      have hne : "dask.pem".toList ≠ "dask.crt".toList := by decide
      refine ⟨?_, ?_, ?_⟩
      · rw [lookup_set, if_neg hne, lookup_set, if_pos rfl]
      · rw [lookup_set, if_pos rfl]
      · intro name h1 h2
        rw [lookup_set, if_neg (Ne.symm h2), lookup_set, if_neg (Ne.symm h1), files_lookup f g.localize r hf name]
        rfl

/-- The variables of a scheduler or worker that name its credentials. -/
theorem vars_of (d : List (Str × Str)) (ca kv cv a b : Str) (h1 : kv ≠ ca) (h2 : cv ≠ ca) (h3 : cv ≠ kv) :
    lookup (Dict.update d [(ca, a), (kv, b), (cv, a)]) ca = some a ∧
    lookup (Dict.update d [(ca, a), (kv, b), (cv, a)]) cv = some a ∧
    lookup (Dict.update d [(ca, a), (kv, b), (cv, a)]) kv = some b ∧
    ∀ k, k ≠ ca → k ≠ kv → k ≠ cv → lookup (Dict.update d [(ca, a), (kv, b), (cv, a)]) k = lookup d k := by
  simp only [update_cons, update_nil, lookup_set]
  refine ⟨?_, ?_, ?_, ?_⟩
  · rw [if_neg h2, if_neg h1, if_pos trivial]
  · rw [if_pos trivial]
  · rw [if_neg h3, if_pos trivial]
  · intro k e1 e2 e3
    rw [if_neg (Ne.symm e3), if_neg (Ne.symm e2), if_neg (Ne.symm e1)]

/-- C144: the environment of schedulers refers to the files of the credentials by the names under which they are
there, and has everything else that the gateway gives them. -/
theorem C144_scheduler_env (f : List (Str × Str) → Option FileSpec) (g : Given) (cert key : Str) (s : Spec)
    (h : buildSpec f g cert key = some s) :
    lookup s.master.env "DASK_DISTRIBUTED__COMM__TLS__CA_FILE".toList = some "dask.crt".toList ∧
    lookup s.master.env "DASK_DISTRIBUTED__COMM__TLS__SCHEDULER__CERT".toList = some "dask.crt".toList ∧
    lookup s.master.env "DASK_DISTRIBUTED__COMM__TLS__SCHEDULER__KEY".toList = some "dask.pem".toList ∧
    ∀ k, k ≠ "DASK_DISTRIBUTED__COMM__TLS__CA_FILE".toList → k ≠ "DASK_DISTRIBUTED__COMM__TLS__SCHEDULER__KEY".toList →
      k ≠ "DASK_DISTRIBUTED__COMM__TLS__SCHEDULER__CERT".toList → lookup s.master.env k = lookup g.env k := by
  have e : s.master.env = Env.schedulerEnv g.env "dask.crt".toList "dask.pem".toList := by
    unfold buildSpec at h
    cases ha : allFiles f g cert key with
    | none => rw [ha] at h; cases h
    | some files => rw [ha] at h; cases h; rfl
  rw [e]
  exact vars_of g.env _ _ _ _ _ (by decide +kernel) (by decide +kernel) (by decide +kernel)

/-- C144: the same of workers. -/
theorem C144_worker_env (f : List (Str × Str) → Option FileSpec) (g : Given) (cert key : Str) (s : Spec)
    (h : buildSpec f g cert key = some s) :
    lookup s.worker.env "DASK_DISTRIBUTED__COMM__TLS__CA_FILE".toList = some "dask.crt".toList ∧
    lookup s.worker.env "DASK_DISTRIBUTED__COMM__TLS__WORKER__CERT".toList = some "dask.crt".toList ∧
    lookup s.worker.env "DASK_DISTRIBUTED__COMM__TLS__WORKER__KEY".toList = some "dask.pem".toList ∧
    ∀ k, k ≠ "DASK_DISTRIBUTED__COMM__TLS__CA_FILE".toList → k ≠ "DASK_DISTRIBUTED__COMM__TLS__WORKER__KEY".toList →
      k ≠ "DASK_DISTRIBUTED__COMM__TLS__WORKER__CERT".toList → lookup s.worker.env k = lookup g.env k := by
  have e : s.worker.env = Env.workerEnv g.env "dask.crt".toList "dask.pem".toList := by
    unfold buildSpec at h
    cases ha : allFiles f g cert key with
    | none => rw [ha] at h; cases h
    | some files => rw [ha] at h; cases h; rfl
  rw [e]
  exact vars_of g.env _ _ _ _ _ (by decide +kernel) (by decide +kernel) (by decide +kernel)

/-- C144: there is no specification exactly if the options of some file are not those of one. -/
theorem C144_refused (f : List (Str × Str) → Option FileSpec) (g : Given) (cert key : Str) :
    buildSpec f g cert key = none ↔ ∃ name d, (name, FileSpec.opts d) ∈ g.localize ∧ f d = none := by
  unfold buildSpec allFiles
  rw [Option.map_eq_none_iff, Option.map_eq_none_iff, files_none]

/-- A file with the options of an archive, and one that would replace the credentials. -/
def exFiles : List (Str × FileSpec) :=
  [("environment".toList, .opts [("source".toList, "hdfs:///env.tar.gz".toList)]), ("dask.crt".toList, .path "/tmp/mine".toList),
   ("data".toList, .path "/data".toList)]

/-- The hypotheses of C144 are met. -/
example (sys : Batch.Sys) (conf : Batch.Conf) (env : List (Str × Str)) : ∃ s,
    buildSpec (fun d => some (.opts (("type".toList, "ARCHIVE".toList) :: d))) ⟨sys, conf, "alice".toList, exFiles, env⟩
      "/tmp/c".toList "/tmp/k".toList = some s ∧
    s.worker.files = [("environment".toList, .opts [("type".toList, "ARCHIVE".toList), ("source".toList, "hdfs:///env.tar.gz".toList)]),
      ("dask.crt".toList, .path "/tmp/c".toList), ("data".toList, .path "/data".toList), ("dask.pem".toList, .path "/tmp/k".toList)] ∧
    numberOf (bytes 2147483648) = 2147483648 := by
  refine ⟨_, rfl, rfl, (number_bytes _).1⟩

end Verif.Yarn
