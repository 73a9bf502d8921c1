import Verif.Fleet.Props
/-
Histories of the gateway together with its schedulers: cases of the theorems of `Verif.Fleet.Props`, and the histories that
violate C117 and what C116 assumes.
-/
set_option linter.unusedSimpArgs false
set_option linter.unusedVariables false
namespace Verif.Fleet
open Verif.Backend (State Cfg Op Ev SInv Cluster Worker StopRequested cfgS)

/-- Worker names are decimal numbers. -/
def demoEnv : Env :=
  { num := fun s => s.foldl (fun a ch => 10 * a + (ch.toNat - 48)) 0
    api := fun _ => "http://a", sched := fun _ => "tls://s", dash := fun _ => "http://d" }

/-- A heartbeat is made, handled and answered. -/
def round (n : Nat) (toClose : List Str) (now : Int) : List Item := [.make n toClose, .arrive n (.whole now) true]

/-- A cluster with two workers. -/
def up2 : List Item :=
  [.gateway (.op (.startCluster "ann" (some 3) 1000)), .gateway (.op (.getC 0 1000)), .gateway (.op (.endStartC 0 true)), .scale 0 2] ++
  round 0 [] 2000 ++
  [.gateway (.op (.getC 0 2000)), .gateway (.op (.getW 0 1 2000)), .gateway (.op (.getW 0 2 2000)),
    .gateway (.op (.endStartW 0 1 true)), .gateway (.op (.endStartW 0 2 true)),
    .joined 0 ['a'] ['1'], .joined 0 ['b'] ['2']] ++ round 0 [] 3000

/-- One worker fails without having been announced, and another one is started for it. -/
def failed1 : List Item :=
  up2 ++ [.left 0 ['b']] ++ round 0 [] 4000 ++ [.gateway (.op (.getW 0 2 4000)), .gateway (.op (.endStopW 0 2 4000)),
    .gateway (.op (.getC 0 4000)), .gateway (.op (.getW 0 3 4000)), .gateway (.op (.endStartW 0 3 true))]

/-- One worker too many is announced as closing, but the answer to the heartbeat is lost, so that the worker is not retired. Then
two workers are requested again. Later that worker fails. -/
def lostAnswer : List Item :=
  up2 ++ [.scale 0 1, .make 0 [['2']], .arrive 0 (.whole 4000) false, .scale 0 2] ++ round 0 [] 5000 ++
  [.gateway (.op (.getC 0 5000)), .left 0 ['b']] ++ round 0 [] 6000 ++ [.gateway (.op (.getW 0 2 6000)), .gateway (.op (.endStopW 0 2 6000))]

/-- The same if the retirement fails. -/
def retireFails : List Item :=
  up2 ++ [.scale 0 1, .make 0 [['2']], .arrive 0 (.whole 4000) true, .retired 0 false, .scale 0 2] ++ round 0 [] 5000 ++
  [.gateway (.op (.getC 0 5000)), .left 0 ['b']] ++ round 0 [] 6000 ++ [.gateway (.op (.getW 0 2 6000)), .gateway (.op (.endStopW 0 2 6000))]

/-! ### C116 -/

/-- A heartbeat of which the scheduler gave up waiting, one that was interrupted by a crash of the gateway, and one that is under way. -/
def mixed : List Item :=
  up2 ++ [.make 0 [], .gaveUp 0, .left 0 ['b'], .make 0 [], .arrive 0 (.cut 4000 2 5000) true, .scale 0 3, .make 0 [], .late 0 0 (.whole 6000)]

example : ((((run cfgS demoEnv mixed).sch 0).phase = .sent ⟨3, ⟨[['1']], [], [['2']]⟩⟩ : Prop) ∧
    (((run cfgS demoEnv mixed).gw.find 0).map (fun c => (decide (c.row.target = .running), c.row.count,
      c.workers.map (fun w => (w.row.name, w.row.status))))) =
      some (true, 2, [(1, .running), (2, .running)]) ∧ (∀ i ∈ mixed, i ≠ .fresh 0)) := by
  decide +kernel

/-- If a scheduler's process is replaced by a new one that does not know the workers of the old one, its heartbeats are refused with
an internal error. -/
theorem C116_replaced_violated : ∃ (cfg : Cfg) (env : Env) (items : List Item) (n : Nat) (note : Note) (c : Cluster),
    ((run cfg env items).sch n).phase = .sent note ∧ (run cfg env items).gw.find n = some c ∧ ¬ StopRequested c ∧
      answers (run cfg env items).gw n (env.wire n note) = false := by
  have h : ((run cfgS demoEnv (up2 ++ [.fresh 0, .make 0 []])).gw.find 0).isSome = true ∧
      (((run cfgS demoEnv (up2 ++ [.fresh 0, .make 0 []])).gw.find 0).map (fun c => decide (c.row.target = .running))) = some true ∧
      ((run cfgS demoEnv (up2 ++ [.fresh 0, .make 0 []])).sch 0).phase = .sent ⟨0, ⟨[], [], []⟩⟩ ∧
      answers (run cfgS demoEnv (up2 ++ [.fresh 0, .make 0 []])).gw 0 (demoEnv.wire 0 ⟨0, ⟨[], [], []⟩⟩) = false := by
    decide +kernel
  obtain ⟨h1, h2, h3, h4⟩ := h
  obtain ⟨c, hc⟩ := Option.isSome_iff_exists.1 h1
  rw [hc] at h2
  simp only [Option.map_some, Option.some.injEq, decide_eq_true_eq] at h2
  exact ⟨_, _, _, 0, _, c, h3, hc, by simp [StopRequested, Backend.JobStatus.finished, h2], h4⟩

/-- A heartbeat that arrives late, when nobody waits for it any more, can be refused: here it was made before the workers had connected. -/
example : answers (run cfgS demoEnv ([.gaveUp 0, .make 0 [], .gaveUp 0] ++ up2)).gw 0 (demoEnv.wire 0 ⟨0, ⟨[], [], []⟩⟩) = false ∧
    ((run cfgS demoEnv ([.gaveUp 0, .make 0 [], .gaveUp 0] ++ up2)).sch 0).stray = [⟨0, ⟨[], [], []⟩⟩] := by decide +kernel

/-! ### C117 -/

/-- The cluster was heard again. -/
def heard (l : Option Int) (c : Cluster) : Cluster := { c with vol := { c.vol with lastHb := l } }

/-- Rounds of heartbeats that repeat what is known change nothing but the time at which the cluster was heard. -/
theorem rounds_steady {cfg : Cfg} {env : Env} {n : Nat} {c0 : Cluster} {m : Backend.Msg} (rounds : List Int) :
    ∀ {w : World}, SInv cfg w.gw → (w.sch n).phase = .quiet → ((w.sch n).svc.active.length : Int) ≤ (w.sch n).count →
    (∃ l, w.gw.find n = some (heard l c0)) → m = env.wire n ⟨(w.sch n).count, ⟨(w.sch n).svc.active, [], (w.sch n).svc.closed⟩⟩ →
    c0.row.target.n ≤ 3 → Backend.hbRaises c0 m = false → c0.row.status = .running →
    Backend.hbCount c0.row.maxWorkers m.count = c0.row.count → Backend.hbNewlyRunning c0 m = [] →
    (∀ x ∈ c0.workers, Backend.hbW c0 m x = x) →
    let w' := (rounds.flatMap (round n [])).foldl (World.step cfg env) w
    w'.sch n = w.sch n ∧ ∃ l, w'.gw.find n = some (heard l c0) := by
  induction rounds with
  | nil => exact fun _ _ _ h _ _ _ _ _ _ _ => ⟨rfl, h⟩
  | cons now rounds ih =>
    intro w hi hp hle hfind hm h1 h2 h3 h4 h5 h6
    obtain ⟨l, hl⟩ := hfind
    have e1 : w.step cfg env (.make n []) = w.setSch n ((w.sch n).make []) := by simp only [World.step, hp]
    have hphase : ((w.setSch n ((w.sch n).make [])).sch n).phase = .sent ⟨(w.sch n).count, ⟨(w.sch n).svc.active, [], (w.sch n).svc.closed⟩⟩ := by
      rw [setSch_sch, if_pos rfl]
      simp only [Sch.make, Sched.Svc.message]
      rw [if_neg (by omega)]
    have hon : Backend.onAll (heard l c0) (Backend.heartbeatActs (heard l c0) m now) = heard (some now) c0 := by
      rw [Backend.hb_steady (c := heard l c0) now h1 h2 h3 h4 h5 h6]
      rfl
    have hg : ((w.setSch n ((w.sch n).make [])).step cfg env (.arrive n (.whole now) true)).gw.find n = some (heard (some now) c0) := by
      rw [arrive_gw hphase, setSch_gw, Backend.step_find hi rfl, hl, Option.map_some]
      simp only [Backend.acts, hl]
      rw [← hm, hon]
    have hi2 : SInv cfg ((w.setSch n ((w.sch n).make [])).step cfg env (.arrive n (.whole now) true)).gw := by
      rw [arrive_gw hphase, setSch_gw]
      exact Backend.step_inv hi _
    have hs : ((w.setSch n ((w.sch n).make [])).step cfg env (.arrive n (.whole now) true)).sch n = w.sch n := by
      simp only [World.step, hphase]
      rw [setSch_sch, if_pos rfl]
      have : (w.setSch n ((w.sch n).make [])).sch n = (w.sch n).make [] := by rw [setSch_sch, if_pos rfl]
      rw [this]
      simp only [Sch.answered, if_true]
      have hq : ({ (w.sch n).make [] with phase := .quiet } : Sch) = w.sch n := by
        rw [← hp]
        rfl
      split
      · exact hq
      · exact hq
    have hfold : ((now :: rounds).flatMap (round n [])).foldl (World.step cfg env) w =
        (rounds.flatMap (round n [])).foldl (World.step cfg env) ((w.setSch n ((w.sch n).make [])).step cfg env (.arrive n (.whole now) true)) := by
      simp only [List.flatMap_cons, List.foldl_append, round, List.foldl_cons, List.foldl_nil, e1]
    intro w'
    have hw' : w' = (rounds.flatMap (round n [])).foldl (World.step cfg env) ((w.setSch n ((w.sch n).make [])).step cfg env (.arrive n (.whole now) true)) := hfold
    rw [hw']
    have := ih hi2 (by rw [hs]; exact hp) (by rw [hs]; exact hle) ⟨_, hg⟩ (by rw [hs]; exact hm) h1 h2 h3 h4 h5 h6
    simp only [hs] at this
    exact this

/-- C117 does not hold: after one answer that was lost, a worker that fails is never replaced, however many heartbeats are
exchanged after that. The scheduler requests two workers and one is connected; the gateway knows both, and has nothing to do. -/
theorem C117_failed_replaced_violated : ∃ (cfg : Cfg) (env : Env) (items : List Item) (n : Nat), (∀ i ∈ items, i ≠ .fresh n) ∧
    ∀ rounds : List Int, ∃ c, (run cfg env (items ++ rounds.flatMap (round n []))).gw.find n = some c ∧
      c.modelStatus = some .running ∧ c.Quiescent ∧ c.row.count = 2 ∧ c.provided = 1 ∧
      ((run cfg env (items ++ rounds.flatMap (round n []))).sch n).count = 2 ∧
      ((run cfg env (items ++ rounds.flatMap (round n []))).sch n).svc.active.length = 1 ∧
      ((run cfg env (items ++ rounds.flatMap (round n []))).sch n).phase = .quiet := by
  refine ⟨cfgS, demoEnv, lostAnswer, 0, by decide +kernel, fun rounds => ?_⟩
  have hsch : (run cfgS demoEnv lostAnswer).sch 0 = ⟨2, ⟨[(['a'], ['1'])], [['1']], [], [['2']]⟩, .quiet, []⟩ := by decide +kernel
  have h : (((run cfgS demoEnv lostAnswer).gw.find 0).map (fun c => decide (c.row.target.n ≤ 3 ∧
      Backend.hbRaises c (demoEnv.wire 0 ⟨2, ⟨[['1']], [], [['2']]⟩⟩) = false ∧ c.row.status = .running ∧
      Backend.hbCount c.row.maxWorkers 2 = c.row.count ∧ Backend.hbNewlyRunning c (demoEnv.wire 0 ⟨2, ⟨[['1']], [], [['2']]⟩⟩) = [] ∧
      (∀ x ∈ c.workers, Backend.hbW c (demoEnv.wire 0 ⟨2, ⟨[['1']], [], [['2']]⟩⟩) x = x) ∧
      c.modelStatus = some .running ∧ c.row.count = 2 ∧ c.provided = 1 ∧
      (c.vol.pending = false ∧ c.vol.fl = .idle ∧ ∀ w ∈ c.workers, w.vol.pending = false ∧ w.vol.fl = .idle)))) = some true := by
    decide +kernel
  cases hf : (run cfgS demoEnv lostAnswer).gw.find 0 with
  | none => rw [hf] at h; simp at h
  | some c0 =>
    rw [hf] at h
    simp only [Option.map_some, Option.some.injEq, decide_eq_true_eq] at h
    obtain ⟨h1, h2, h3, h4, h5, h6, h7, h8, h9, h10⟩ := h
    obtain ⟨evs, he⟩ := gw_run cfgS demoEnv lostAnswer
    have hi : SInv cfgS (run cfgS demoEnv lostAnswer).gw := by rw [he]; exact Backend.run_inv cfgS evs
    obtain ⟨r1, l, r2⟩ := rounds_steady (c0 := c0) (m := demoEnv.wire 0 ⟨2, ⟨[['1']], [], [['2']]⟩⟩) rounds hi (by rw [hsch]) (by rw [hsch]; decide)
      ⟨c0.vol.lastHb, hf⟩ (by rw [hsch]) h1 h2 h3 h4 h5 h6
    have e : run cfgS demoEnv (lostAnswer ++ rounds.flatMap (round 0 [])) =
        (rounds.flatMap (round 0 [])).foldl (World.step cfgS demoEnv) (run cfgS demoEnv lostAnswer) := by
      simp [run, List.foldl_append]
    rw [e, r1, r2, hsch]
    exact ⟨_, rfl, h7, h10, h8, h9, rfl, rfl, rfl⟩

example : ((run cfgS demoEnv retireFails).gw.find 0).map (fun c => decide (c.modelStatus = some .running ∧ c.row.count = 2 ∧ c.provided = 1 ∧
    (c.vol.pending = false ∧ c.vol.fl = .idle ∧ ∀ w ∈ c.workers, w.vol.pending = false ∧ w.vol.fl = .idle))) = some true := by decide +kernel

/-- A worker that failed without having been announced is replaced. -/
example : ((run cfgS demoEnv failed1).gw.find 0).map (fun c => decide (c.modelStatus = some .running ∧ c.row.count = 2 ∧ c.provided = 2 ∧
    (c.vol.pending = false ∧ c.vol.fl = .idle ∧ ∀ w ∈ c.workers, w.vol.pending = false ∧ w.vol.fl = .idle) ∧
    c.workers.map (fun w => (w.row.name, w.row.status)) = [(1, .running), (2, .failed), (3, .submitted)])) = some true := by decide +kernel

/-- Nothing was announced in it. -/
example : NoSurplus cfgS demoEnv failed1 0 := by
  have key : ∀ k < failed1.length, (((run cfgS demoEnv (failed1.take k)).sch 0).svc.active.length : Int) ≤
      ((run cfgS demoEnv (failed1.take k)).sch 0).count := by decide +kernel
  intro b l a e
  have h : b = failed1.take b.length := by rw [e]; simp
  have := key b.length (by rw [e]; simp)
  rwa [← h] at this

/-! ### C118 -/

/-- The third worker connects and is reported. -/
def replaced : List Item := failed1 ++ [.joined 0 ['c'] ['3']] ++ round 0 [] 5000

example : (((run cfgS demoEnv replaced).sch 0).phase = .quiet ∧ ((run cfgS demoEnv replaced).sch 0).count = 2 ∧
    ((run cfgS demoEnv replaced).sch 0).svc.active.length = 2) ∧ (∀ i ∈ replaced, i ≠ .fresh 0) ∧
    ((run cfgS demoEnv (replaced ++ [.make 0 [], .arrive 0 (.whole 6000) true])).gw.find 0).map (fun c => decide (c.modelStatus = some .running ∧
      (c.vol.pending = false ∧ c.vol.fl = .idle ∧ ∀ w ∈ c.workers, w.vol.pending = false ∧ w.vol.fl = .idle) ∧
      c.workers.map (fun w => (w.row.name, w.row.status)) = [(1, .running), (2, .failed), (3, .running)])) = some true := by decide +kernel

end Verif.Fleet
