import Verif.Idle.Model
import Verif.Boot.Requests
/-! Properties C145 to C147: idle clusters, and the start of the service within a scheduler. -/
set_option linter.unusedSimpArgs false
set_option linter.unusedVariables false
namespace Verif.Idle
open Verif.Sched (Activity workAt viewAfter)

/-! ### C145: specification -/

/-- Specification: there is no work on any task from a time on, at which the scheduler runs already. -/
structure QuietFrom (w : World) (t : Rat) : Prop where
  started : w.started ≤ t
  still : ∀ a ∈ w.activity, a.time ≤ t
  noWork : workAt w.activity t = 0

/-- Specification: times in order, after the start, and a log that is kept. -/
structure Orderly (w : World) : Prop where
  keep : 0 < w.keep
  order : (w.activity.map Activity.time).Pairwise (· ≤ ·)
  after : ∀ a ∈ w.activity, w.started ≤ a.time

/-- The service of a scheduler that was started with some command line. -/
def Started (s : Service) : Prop := ∃ float h argv, daskSetup float h argv = .serving s

/-! ### C145: lemmas -/

theorem started_checking {s : Service} (h : Started s) : s.checking = decide (s.idleTimeout > 0) ∧ 0 ≤ s.idleTimeout := by
  obtain ⟨float, host, argv, h⟩ := h
  unfold daskSetup at h
  split at h
  · cases h
  · rename_i o _
    split at h
    · split at h
      · cases h
      · split at h
        · cases h
        · split at h
          · cases h
          · split at h
            · cases h
            · injection h with h
              subst h
              refine ⟨rfl, ?_⟩
              show 0 ≤ max 0 o.idleTimeout
              grind
    · cases h

private theorem workAt_filter (h : List Activity) (t t' : Rat) (ht : t' ≤ t) :
    workAt (h.filter (fun a => a.time ≤ t)) t' = workAt h t' := by
  unfold workAt
  generalize 0 = n
  induction h generalizing n with
  | nil => rfl
  | cons a h ih =>
    rw [List.filter_cons]
    by_cases ha : a.time ≤ t
    · rw [if_pos (by simpa using ha), List.foldl_cons, List.foldl_cons, ih]
    · rw [if_neg (by simpa using ha), List.foldl_cons, ih, if_neg (by grind)]

private theorem filter_all {h : List Activity} {t : Rat} (ha : ∀ a ∈ h, a.time ≤ t) :
    h.filter (fun a => a.time ≤ t) = h := by
  rw [List.filter_eq_self]
  intro a hm
  simpa using ha a hm

private theorem run_snoc (s : Service) (w : World) (b : Rat) (evs : List Ev) (e : Ev) :
    runLoop s w b (evs ++ [e]) = Loop.step s.idleTimeout w (runLoop s w b evs) e := by
  unfold runLoop
  rw [List.foldl_append]
  rfl

/-- Each request was made by a check that found the cluster idle. -/
private theorem asked_idle (s : Service) (w : World) (b : Rat) (evs : List Ev) :
    ∀ p ∈ (runLoop s w b evs).asked, Sched.idle s.idleTimeout (w.view p.1) p.1 = true := by
  induction evs using Router.snoc_induction with
  | nil => intro p hp; cases hp
  | snoc evs e ih =>
    rw [run_snoc]
    cases e with
    | stop => exact ih
    | round r =>
      unfold Loop.step
      dsimp only
      split
      · unfold Loop.round
        dsimp only
        split
        · rename_i hi
          intro p hp
          rcases List.mem_append.mp hp with hp | hp
          · exact ih p hp
          · rw [List.mem_singleton.mp hp]
            exact hi
        · exact ih
      · exact ih

private theorem dead_step (timeout : Rat) (w : World) (l : Loop) (h : l.running = false) (evs : List Ev) :
    (evs.foldl (Loop.step timeout w) l).asked = l.asked ∧ (evs.foldl (Loop.step timeout w) l).running = false := by
  induction evs generalizing l with
  | nil => exact ⟨rfl, h⟩
  | cons e evs ih =>
    rw [List.foldl_cons]
    cases e with
    | stop => exact ih { l with running := false } rfl
    | round r =>
      have : l.step timeout w (.round r) = l := by
        unfold Loop.step
        dsimp only
        rw [if_neg (by rw [h]; simp)]
      rw [this]
      exact ih l h

/-! ### C145 -/

/-- C145: whenever a scheduler asks for the end of its cluster, there was no work on any task during the whole of the idle
timeout, however late its checks are. -/
theorem C145_only (s : Service) (w : World) (ho : Orderly w) (begun : Rat) (evs : List Ev) (t : Rat) (ok : Bool)
    (h : (t, ok) ∈ (runLoop s w begun evs).asked) (t' : Rat) (h1 : t - s.idleTimeout ≤ t') (h2 : t' ≤ t) :
    w.started < t' ∧ (∀ a ∈ w.activity, a.time ≤ t → a.time < t') ∧ workAt w.activity t' = 0 := by
  have hi := asked_idle s w begun evs _ h
  have := Sched.C56_idle s.idleTimeout w.keep ho.keep w.started t _
    (by
      have := ho.order
      rw [List.pairwise_map] at this ⊢
      exact this.sublist List.filter_sublist)
    (fun a ha => ho.after a (List.mem_filter.mp ha).1) hi t' h1
  refine ⟨this.1, fun a ha hat => this.2.1 a (List.mem_filter.mpr ⟨ha, by simpa using hat⟩), ?_⟩
  rw [← workAt_filter _ t t' h2]
  exact this.2.2

/-- C145: without an idle timeout a scheduler never asks for the end of its cluster. -/
theorem C145_off (s : Service) (hs : Started s) (h0 : s.idleTimeout = 0) (w : World) (begun : Rat) (evs : List Ev) :
    (runLoop s w begun evs).asked = [] := by
  have hc : s.checking = false := by
    rw [(started_checking hs).1, h0]
    decide +kernel
  exact (dead_step s.idleTimeout w (.init s begun) hc evs).1

/-- A stream of turns, up to one of them. -/
def turns (r : Nat → Round) (n : Nat) : List Ev := (List.range n).map (fun i => .round (r i))

private theorem turns_succ (r : Nat → Round) (n : Nat) : turns r (n + 1) = turns r n ++ [.round (r n)] := by
  unfold turns
  rw [List.range_succ, List.map_append]
  rfl

private theorem running_turns (s : Service) (hc : s.checking = true) (w : World) (b : Rat) (r : Nat → Round)
    (hok : ∀ n, (r n).ok = true) (n : Nat) : (runLoop s w b (turns r n)).running = true := by
  induction n with
  | zero => exact hc
  | succ n ih =>
    rw [turns_succ, run_snoc]
    unfold Loop.step
    dsimp only
    rw [if_pos ih]
    unfold Loop.round
    dsimp only
    split
    · exact hok n
    · exact ih

private theorem since_turns (s : Service) (hc : s.checking = true) (w : World) (b : Rat) (r : Nat → Round)
    (hok : ∀ n, (r n).ok = true) (hl : ∀ n, 0 ≤ (r n).late ∧ 0 ≤ (r n).took) (n : Nat) :
    b + (n : Rat) * (s.idleTimeout / 4) ≤ (runLoop s w b (turns r n)).since := by
  induction n with
  | zero =>
    show b + ((0 : Nat) : Rat) * (s.idleTimeout / 4) ≤ b
    have : ((0 : Nat) : Rat) = 0 := rfl
    rw [this, Rat.zero_mul]
    grind
  | succ n ih =>
    rw [turns_succ, run_snoc]
    unfold Loop.step
    dsimp only
    rw [if_pos (running_turns s hc w b r hok n)]
    unfold Loop.round
    dsimp only
    have hn : ((n + 1 : Nat) : Rat) = (n : Rat) + 1 := by
      rw [Rat.natCast_add]; rfl
    rw [hn]
    have := hl n
    split
    · show _ ≤ (runLoop s w b (turns r n)).since + s.idleTimeout / 4 + (r n).late + (r n).took
      grind
    · show _ ≤ (runLoop s w b (turns r n)).since + s.idleTimeout / 4 + (r n).late
      grind

private theorem archimedes (x y : Rat) (hy : 0 < y) : ∃ n : Nat, x < (n : Rat) * y := by
  refine ⟨(x / y).floor.toNat + 1, ?_⟩
  have h1 := Rat.lt_floor_add_one (x / y)
  have h2 : (((x / y).floor + 1 : Int) : Rat) ≤ (((x / y).floor.toNat + 1 : Nat) : Rat) := by
    rw [← Rat.intCast_natCast]
    apply Rat.intCast_le_intCast.mpr
    omega
  have h3 : x / y < (((x / y).floor.toNat + 1 : Nat) : Rat) := (by grind)
  exact (Rat.div_lt_iff hy).mp h3

private theorem first_nat (P : Nat → Prop) (h0 : ¬ P 0) (n : Nat) (hn : P n) : ∃ m, ¬ P m ∧ P (m + 1) := by
  induction n with
  | zero => exact absurd hn h0
  | succ n ih =>
    by_cases hp : P n
    · exact ih hp
    · exact ⟨n, hp, hn⟩

/-- C145: a cluster on which there is no work any more is asked to be shut down: after the idle timeout, and at most a
quarter of it later, up to the delays of the scheduler and of earlier requests. What is missing: this holds as long as no
request fails, see `C145_violated`. -/
theorem C145_prompt_partial (s : Service) (hs : Started s) (hp : 0 < s.idleTimeout) (w : World) (t0 : Rat)
    (hq : QuietFrom w t0) (begun late took : Rat) (r : Nat → Round) (hok : ∀ n, (r n).ok = true)
    (hl : ∀ n, 0 ≤ (r n).late ∧ (r n).late ≤ late) (ht : ∀ n, 0 ≤ (r n).took ∧ (r n).took ≤ took) :
    ∃ n t, (t, true) ∈ (runLoop s w begun (turns r n)).asked ∧ t0 + s.idleTimeout < t ∧
      t ≤ max begun (t0 + s.idleTimeout) + took + s.idleTimeout / 4 + late := by
  have hc : s.checking = true := by rw [(started_checking hs).1]; simpa using hp
  have hidle : ∀ t, t0 + s.idleTimeout < t → Sched.idle s.idleTimeout (w.view t) t = true := by
    intro t h
    unfold World.view
    rw [filter_all (fun a ha => by have := hq.still a ha; grind)]
    apply Sched.C56_prompt
    · have : workAt w.activity t = workAt w.activity t0 := by
        have hst := hq.still
        unfold workAt
        generalize 0 = k
        generalize w.activity = l at hst
        induction l generalizing k with
        | nil => rfl
        | cons a l ih =>
          have h1 := hst a (by simp)
          rw [List.foldl_cons, List.foldl_cons, if_pos h1, if_pos (by grind)]
          exact ih _ (fun b hb => hst b (List.mem_cons_of_mem _ hb))
      rw [this]
      exact hq.noWork
    · intro a ha
      have := hq.still a ha
      grind
    · grind
    · have := hq.started
      grind
  have hstep : ∀ n, (runLoop s w begun (turns r (n + 1))) =
      (runLoop s w begun (turns r n)).round s.idleTimeout w (r n) := by
    intro n
    rw [turns_succ, run_snoc]
    unfold Loop.step
    dsimp only
    rw [if_pos (running_turns s hc w begun r hok n)]
  -- the check that comes first after the idle timeout
  have hask : ∀ n, t0 + s.idleTimeout < (runLoop s w begun (turns r n)).since + s.idleTimeout / 4 + (r n).late →
      ((runLoop s w begun (turns r n)).since + s.idleTimeout / 4 + (r n).late, true) ∈
        (runLoop s w begun (turns r (n + 1))).asked := by
    intro n h
    rw [hstep]
    unfold Loop.round
    dsimp only
    rw [if_pos (hidle _ h), hok n]
    simp
  by_cases h0 : t0 + s.idleTimeout < begun + s.idleTimeout / 4 + (r 0).late
  · refine ⟨1, begun + s.idleTimeout / 4 + (r 0).late, hask 0 h0, h0, ?_⟩
    have := hl 0
    have := ht 0
    grind
  · obtain ⟨n, hn⟩ := archimedes (t0 + s.idleTimeout - begun) (s.idleTimeout / 4) (by grind)
    have hsince := since_turns s hc w begun r hok (fun n => ⟨(hl n).1, (ht n).1⟩) n
    obtain ⟨m, h1, h2⟩ := first_nat
      (fun n => t0 + s.idleTimeout < (runLoop s w begun (turns r n)).since + s.idleTimeout / 4 + (r n).late)
      h0 n (by
        show t0 + s.idleTimeout < (runLoop s w begun (turns r n)).since + s.idleTimeout / 4 + (r n).late
        have := (hl n).1
        grind)
    refine ⟨m + 2, _, hask (m + 1) h2, h2, ?_⟩
    have hs2 : (runLoop s w begun (turns r (m + 1))).since ≤
        (runLoop s w begun (turns r m)).since + s.idleTimeout / 4 + (r m).late + (r m).took := by
      rw [hstep]
      unfold Loop.round
      dsimp only
      have := ht m
      split
      · exact Rat.le_refl
      · show (runLoop s w begun (turns r m)).since + s.idleTimeout / 4 + (r m).late ≤ _
        grind
    have := hl (m + 1)
    have := ht m
    have h1 : ¬ t0 + s.idleTimeout < (runLoop s w begun (turns r m)).since + s.idleTimeout / 4 + (r m).late := h1
    grind

/-- C145: after a request that failed the scheduler makes no other one. -/
theorem C145_once (s : Service) (w : World) (begun : Rat) (evs more : List Ev) (t : Rat)
    (h : (t, false) ∈ (runLoop s w begun evs).asked) :
    (runLoop s w begun (evs ++ more)).asked = (runLoop s w begun evs).asked := by
  have hd : (runLoop s w begun evs).running = false := by
    have key : ∀ evs : List Ev, (∀ p ∈ (runLoop s w begun evs).asked, p.2 = true) ∨
        (runLoop s w begun evs).running = false := by
      intro evs
      induction evs using Router.snoc_induction with
      | nil => left; intro p hp; cases hp
      | snoc evs e ih =>
        rw [run_snoc]
        cases e with
        | stop => exact Or.inr rfl
        | round r =>
          unfold Loop.step
          dsimp only
          split
          · rename_i hr
            rcases ih with ih | ih
            · unfold Loop.round
              dsimp only
              split
              · cases hok : r.ok with
                | false => exact Or.inr rfl
                | true =>
                  left
                  intro p hp
                  rcases List.mem_append.mp hp with hp | hp
                  · exact ih p hp
                  · rw [List.mem_singleton.mp hp]
              · exact Or.inl ih
            · rw [ih] at hr; cases hr
          · exact ih
    rcases key evs with h' | h'
    · exact absurd (h' _ h) (by simp)
    · exact h'
  unfold runLoop at hd ⊢
  rw [List.foldl_append]
  exact (dead_step s.idleTimeout w _ hd more).1

/-- A service with an idle timeout of 60 seconds. -/
def service60 : Service :=
  { client := { cluster := "a".toList, token := "t".toList, url := "u".toList }, adaptivePeriod := 3, heartbeatPeriod := 15,
    heartbeatMax := 15, heartbeatInitial := 1 / 4, idleTimeout := 60, host := [], port := 1, apiAddress := "http://h:1".toList,
    checking := true }

/-- There is such a service. -/
theorem service60_started : Started service60 :=
  ⟨fun _ => some 60,
    { env := [("DASK_GATEWAY_CLUSTER_NAME".toList, "a".toList), ("DASK_GATEWAY_API_URL".toList, "u".toList),
        ("DASK_GATEWAY_API_TOKEN".toList, "t".toList)]
      files := fun _ => none, bind := fun _ _ => some 1, address := "tls://h:2".toList },
    ["--dg-idle-timeout".toList, "60".toList], by decide +kernel⟩

/-- C145 fails when a request does: the first request comes while the gateway restarts, all others would have come
through, and the cluster is never shut down although there is no work on it. -/
theorem C145_violated : ¬ ∀ (s : Service) (w : World) (t0 begun : Rat) (r : Nat → Round), Started s → 0 < s.idleTimeout →
    QuietFrom w t0 → (∀ n, (r n).late = 0 ∧ (r n).took = 0) → (∃ k, ∀ n, k ≤ n → (r n).ok = true) →
    ∃ n t, (t, true) ∈ (runLoop s w begun (turns r n)).asked := by
  intro h
  obtain ⟨n, t, hm⟩ := h service60 { keep := 10, started := 0, activity := [] } 0 0
    (fun n => { late := 0, took := 0, ok := decide (5 ≤ n) }) service60_started (by decide +kernel)
    ⟨by decide +kernel, fun a ha => (by cases ha), rfl⟩ (fun n => ⟨rfl, rfl⟩) ⟨5, fun n hn => by simpa using hn⟩
  have h5 : (runLoop service60 { keep := 10, started := 0, activity := [] } 0
      (turns (fun n => { late := 0, took := 0, ok := decide (5 ≤ n) }) 5)) =
      { running := false, since := 75, asked := [(75, false)] } := by decide +kernel
  by_cases hn : n ≤ 5
  · have hall : ∀ n, n ≤ 5 → (t, true) ∉ (runLoop service60 { keep := 10, started := 0, activity := [] } 0
        (turns (fun n => { late := 0, took := 0, ok := decide (5 ≤ n) }) n)).asked := by
      intro n hn
      match n, hn with
      | 0, _ => exact fun h => (by cases h)
      | 1, _ =>
        rw [show (runLoop service60 { keep := 10, started := 0, activity := [] } 0
          (turns (fun n => { late := 0, took := 0, ok := decide (5 ≤ n) }) 1)).asked = [] from by decide +kernel]
        exact fun h => (by cases h)
      | 2, _ =>
        rw [show (runLoop service60 { keep := 10, started := 0, activity := [] } 0
          (turns (fun n => { late := 0, took := 0, ok := decide (5 ≤ n) }) 2)).asked = [] from by decide +kernel]
        exact fun h => (by cases h)
      | 3, _ =>
        rw [show (runLoop service60 { keep := 10, started := 0, activity := [] } 0
          (turns (fun n => { late := 0, took := 0, ok := decide (5 ≤ n) }) 3)).asked = [] from by decide +kernel]
        exact fun h => (by cases h)
      | 4, _ =>
        rw [show (runLoop service60 { keep := 10, started := 0, activity := [] } 0
          (turns (fun n => { late := 0, took := 0, ok := decide (5 ≤ n) }) 4)).asked = [] from by decide +kernel]
        exact fun h => (by cases h)
      | 5, _ => rw [h5]; simp
      | n + 6, hn => omega
    exact hall n hn hm
  · obtain ⟨k, rfl⟩ : ∃ k, n = 5 + k := ⟨n - 5, by omega⟩
    have hsplit : turns (fun n => ({ late := 0, took := 0, ok := decide (5 ≤ n) } : Round)) (5 + k) =
        turns (fun n => { late := 0, took := 0, ok := decide (5 ≤ n) }) 5 ++
          (List.range k).map (fun i => .round { late := 0, took := 0, ok := decide (5 ≤ 5 + i) }) := by
      unfold turns
      rw [List.range_add, List.map_append, List.map_map]
      rfl
    rw [hsplit, C145_once service60 _ 0 _ _ 75 (by rw [h5]; simp), h5] at hm
    simp at hm

/-- A cluster works from 10 to 20 and then no more; with checks every 15 seconds it is asked to be shut down at 90, which is
the first check after 80. -/
example :
    let w : World := { keep := 100, started := 0, activity := [⟨10, 3, 0⟩, ⟨20, 0, 0⟩] }
    QuietFrom w 20 ∧ Orderly w ∧
    (runLoop service60 w 0 (turns (fun _ => { late := 0, took := 0, ok := true }) 6)).asked = [(90, true)] ∧
    (runLoop service60 w 0 (turns (fun _ => { late := 0, took := 0, ok := true }) 5)).asked = [] :=
  ⟨⟨by decide +kernel, by decide +kernel, by decide +kernel⟩, ⟨by decide, by decide +kernel, by decide +kernel⟩,
    by decide +kernel, by decide +kernel⟩

end Verif.Idle
