import Verif.Fleet.Lemmas
/-
C116 (heartbeats are handled), C117 (failed workers are replaced) and C118 (the requested number of workers runs), for the
gateway together with its schedulers.
-/
set_option linter.unusedSimpArgs false
set_option linter.unusedVariables false
namespace Verif.Fleet
open Verif.Backend (State Cfg Op Ev SInv Cluster Worker StopRequested)

theorem hbCount_limited (mx : Option Nat) (k : Int) : Backend.hbCount mx k = limited mx k := by
  cases mx with
  | none => rfl
  | some m =>
    simp only [Backend.hbCount, limited]
    split <;> omega

theorem target3 {bulk : Bool} {c : Cluster} (h : Backend.CP bulk c) (hs : ¬ StopRequested c) : c.row.target.n = 3 :=
  h.tgt.resolve_right (fun g => hs (Backend.finished_iff.2 g))

/-- The `assert` does not fail. -/
theorem handled {cfg : Cfg} {env : Env} {n : Nat} {w : World} (h : Inv cfg env n w) {note : Note} (hp : (w.sch n).phase = .sent note)
    {c : Cluster} (hc : w.gw.find n = some c) (hs : ¬ StopRequested c) : Backend.hbRaises c (env.wire n note) = false := by
  obtain ⟨hm, hn⟩ := Backend.sfind_spec hc
  rw [← Bool.not_eq_true, Backend.raises_iff]
  rintro ⟨x, hx, hr, hno⟩
  rcases hr with hr | hr
  · exact hno ((h.sch.sent note hp).2.1 _ ⟨c, hm, hn, x, hx, rfl, hr⟩)
  · exact hs (Backend.finished_iff.2 (h.closing c hm x hx hr))

theorem arrive_gw {cfg : Cfg} {env : Env} {w : World} {n : Nat} {note : Note} (hp : (w.sch n).phase = .sent note) (now : Int) (a : Bool) :
    (w.step cfg env (.arrive n (.whole now) a)).gw = w.gw.step cfg (.heartbeat n (env.wire n note) now) := by
  simp only [World.step]
  split
  · rename_i nt hp'
    rw [hp] at hp'
    simp only [Phase.sent.injEq] at hp'
    subst hp'
    rfl
  · rename_i h
    exact (h note hp).elim

/-! ### C116 -/

/-- C116. Through any history of the gateway with crashes and restarts, of workers that come and go, of heartbeats that are lost,
answered in vain or delivered late: the heartbeat a scheduler is waiting for is handled without an internal error. The
gateway stores the count in it, up to the cluster's limit, and that the workers in it run. The scheduler's process must not
have been replaced. -/
theorem C116_heartbeats_handled {cfg : Cfg} {env : Env} {items : List Item} {n : Nat} {note : Note} (hf : ∀ i ∈ items, i ≠ .fresh n)
    (hp : ((run cfg env items).sch n).phase = .sent note) {c : Cluster} (hc : (run cfg env items).gw.find n = some c)
    (hs : ¬ StopRequested c) (now : Int) (answered : Bool) :
    answers (run cfg env items).gw n (env.wire n note) = true ∧
    ∃ d, (run cfg env (items ++ [.arrive n (.whole now) answered])).gw.find n = some d ∧
      d.row.count = limited c.row.maxWorkers note.count ∧
      ∀ w ∈ d.workers, (∃ y, (y ∈ note.msg.active ∨ y ∈ note.msg.closing) ∧ env.num y = w.row.name) →
        w.row.status = .running ∨ w.row.status.finished := by
  have hi := run_inv cfg env n items hf
  have hr := handled hi hp hc hs
  obtain ⟨hm, hn⟩ := Backend.sfind_spec hc
  have ht := target3 (hi.gw.inv c hm).1 hs
  refine ⟨by simp [answers, hc, hr], ?_⟩
  rw [run_snoc, arrive_gw hp, Backend.step_find hi.gw rfl, hc]
  have ea : Backend.acts cfg (run cfg env items).gw (.heartbeat n (env.wire n note) now) =
      Backend.heartbeatActs c (env.wire n note) now := by simp only [Backend.acts, hc]
  refine ⟨_, rfl, ?_, fun w' hw' ⟨y, hy, he⟩ => ?_⟩
  · rw [ea, Backend.hb_count now (by omega) hr, hbCount_limited]
    rfl
  · rw [ea, Backend.hb_workers now (by omega) hr] at hw'
    obtain ⟨w, hw, rfl⟩ := List.mem_map.1 hw'
    by_cases h5 : 5 ≤ w.row.status.n
    · right
      rw [Backend.finished_iff]
      have : w.row.name ∉ Backend.hbNewlyRunning c (env.wire n note) := by
        intro h
        obtain ⟨z, hz, e⟩ := List.mem_map.1 h
        obtain ⟨hz, h3⟩ := List.mem_filter.1 hz
        have hzm : z ∈ c.workers := by
          rcases List.mem_append.1 hz with hz | hz <;> exact (List.mem_filter.1 hz).1
        have := Backend.name_inj (hi.gw.inv c hm).1.nodup hzm hw e
        subst this
        have := of_decide_eq_true h3
        simp at this
        omega
      simp only [Backend.hbW, if_neg this]
      exact h5
    · left
      simp only [Backend.hbW]
      split
      · rfl
      · rename_i hnr
        have n4 : w.row.status ≠ .closing := fun h => hs (Backend.finished_iff.2 (hi.closing c hm w hw h))
        have hge : ¬ w.row.status.n < 3 := by
          intro h3
          refine hnr (List.mem_map.2 ⟨w, List.mem_filter.2 ⟨?_, decide_eq_true h3⟩, rfl⟩)
          have hin : w.row.name ∈ (env.wire n note).closing ∨ w.row.name ∈ (env.wire n note).active := by
            have he' : env.num y = w.row.name := he
            rcases hy with hy | hy
            · exact Or.inr (List.mem_map.2 ⟨y, hy, he'⟩)
            · exact Or.inl (List.mem_map.2 ⟨y, hy, he'⟩)
          have n5 : ¬ (Backend.JobStatus.stopped.n ≤ w.row.status.n) := by rw [Backend.stopped_n]; exact h5
          by_cases hcl : w.row.name ∈ (env.wire n note).closing
          · exact List.mem_append.2 (Or.inl (List.mem_filter.2 ⟨hw, decide_eq_true (by simp only [Backend.hbClass, if_neg n5, if_pos hcl])⟩))
          · exact List.mem_append.2 (Or.inr (List.mem_filter.2 ⟨hw, decide_eq_true (by
              simp only [Backend.hbClass, if_neg n5, if_neg hcl, if_pos (hin.resolve_left hcl)])⟩))
        revert n4 h5 hge
        cases w.row.status <;> simp

/-! ### C117 -/

/-- C117, the part that holds. Whenever a cluster runs and nothing is queued or in flight for it, the workers missing to the number
its scheduler requested are no more than those that finished and that the scheduler once announced as closing.
Missing: the announced ones (see `C117_failed_replaced_violated`). -/
theorem C117_failed_replaced_partial {cfg : Cfg} {env : Env} {items : List Item} {c : Cluster}
    (hc : c ∈ (run cfg env items).gw.clusters) (hr : c.modelStatus = some .running) (hq : c.Quiescent) :
    ∃ gone : List Worker, gone.Sublist c.workers ∧ c.row.count ≤ c.provided + gone.length ∧
      ∀ w ∈ gone, w.row.target.finished ∧ Announced cfg env items c.row.name w.row.name := by
  obtain ⟨evs, e⟩ := gw_run cfg env items
  refine ⟨c.workers.filter (fun w => w.row.closeExpected && decide w.row.target.finished), List.filter_sublist, ?_, fun w hw => ?_⟩
  · rw [e] at hc
    exact Backend.C22_workers_provided_partial hc hr hq
  · obtain ⟨hw, h⟩ := List.mem_filter.1 hw
    simp only [Bool.and_eq_true, decide_eq_true_eq] at h
    exact ⟨h.2, (marked_announced cfg env items c.row.name).1 _ ⟨c, hc, rfl, w, hw, rfl, h.1⟩⟩

/-- C117, without scaling down. If the scheduler never makes a heartbeat while more workers are connected to it than it
requests, then whenever the cluster runs and nothing is queued or in flight for it, it has at least the requested number of
workers, however many of them failed. -/
theorem C117_no_surplus_partial {cfg : Cfg} {env : Env} {items : List Item} {c : Cluster}
    (hn : NoSurplus cfg env items c.row.name) (hc : c ∈ (run cfg env items).gw.clusters) (hr : c.modelStatus = some .running)
    (hq : c.Quiescent) : c.row.count ≤ c.provided := by
  obtain ⟨gone, -, h, hg⟩ := C117_failed_replaced_partial hc hr hq
  cases gone with
  | nil => simpa using h
  | cons w gone => exact (nothing_announced hn (hg w (by simp)).2).elim

/-! ### C118 -/

/-- C118. After a heartbeat that was answered and left nothing to do at the gateway, with no more workers connected than requested,
none that is still waiting to start, and none gone that was announced as closing: the number of workers that run is exactly
the requested one, up to the cluster's limit, and they are workers that are connected. -/
theorem C118_requested_number_runs {cfg : Cfg} {env : Env} {items : List Item} {n : Nat} {toClose : List Str} {now : Int} {c : Cluster}
    (hf : ∀ i ∈ items, i ≠ .fresh n) (hp : ((run cfg env items).sch n).phase = .quiet)
    (hle : (((run cfg env items).sch n).svc.active.length : Int) ≤ ((run cfg env items).sch n).count)
    (hc : c ∈ (run cfg env (items ++ [.make n toClose, .arrive n (.whole now) true])).gw.clusters) (hn : c.row.name = n)
    (hr : c.modelStatus = some .running) (hq : c.Quiescent)
    (hw : ∀ w ∈ c.workers, w.row.status ≠ .created ∧ w.row.status ≠ .submitted)
    (ha : ∀ w ∈ c.workers, w.row.target.finished → ¬ Announced cfg env (items ++ [.make n toClose, .arrive n (.whole now) true]) n w.row.name) :
    ((c.workers.filter (fun w => decide (w.row.status = .running))).length : Int) =
      limited c.row.maxWorkers ((run cfg env items).sch n).count ∧
    ∀ w ∈ c.workers, w.row.status = .running → ∃ y ∈ ((run cfg env items).sch n).svc.active, env.num y = w.row.name := by
  subst hn
  obtain ⟨evs, hevs⟩ := gw_run cfg env (items ++ [.make c.row.name toClose, .arrive c.row.name (.whole now) true])
  have hlim : ((c.workers.filter (fun w => decide (¬ w.row.target.finished))).length : Int) ≤
      limited c.row.maxWorkers ((c.workers.filter (fun w => decide (¬ w.row.target.finished))).length : Int) := by
    cases hk : c.row.maxWorkers with
    | none => exact Int.le_refl _
    | some k =>
      have := (Backend.C21_worker_limit (by rw [← hevs]; exact hc) hk).1
      simp only [limited]
      omega
  obtain ⟨gone, hsub, hcount, hg⟩ := C117_failed_replaced_partial hc hr hq
  have gnil : gone = [] := by
    cases gone with
    | nil => rfl
    | cons w gone =>
      exact (ha w (hsub.subset (by simp)) (hg w (by simp)).1 (hg w (by simp)).2).elim
  subst gnil
  have hfin : ∀ i ∈ items ++ [.make c.row.name toClose, .arrive c.row.name (.whole now) true], i ≠ .fresh c.row.name := by
    intro i h
    simp only [List.mem_append, List.mem_cons, List.not_mem_nil, or_false] at h
    rcases h with h | rfl | rfl
    · exact hf i h
    · simp
    · simp
  have hi2 := run_inv cfg env c.row.name _ hfin
  -- running is the same as not asked to finish
  have hiff : ∀ w ∈ c.workers, (decide (¬ w.row.target.finished) = decide (w.row.status = .running)) := by
    intro w hwm
    rw [decide_eq_decide, Backend.finished_iff]
    have hwp := (hi2.gw.inv c hc).1.ws w hwm
    have hwv := (hi2.gw.inv c hc).2.ws w hwm
    constructor
    · intro h
      have n5 : ¬ 5 ≤ w.row.status.n := fun g => h (hwp.fin g)
      have n4 : w.row.status ≠ .closing := by
        intro g
        have h5 := hi2.closing c hc w hwm g
        rw [(Backend.running33 (hi2.gw.inv c hc).1 hr).2] at h5
        simp at h5
      have := hw w hwm
      revert n5 n4 this
      cases w.row.status <;> simp
    · intro h h5
      rcases hwv.nw3 h5 (by rw [h]; simp) with g | g
      · rw [(hq.2.2 w hwm).1] at g; simp at g
      · rw [(hq.2.2 w hwm).2] at g; simp at g
  have hfe := List.filter_congr hiff
  -- the heartbeat
  have hrun1 : run cfg env (items ++ [.make c.row.name toClose]) =
      (run cfg env items).setSch c.row.name (((run cfg env items).sch c.row.name).make toClose) := by
    rw [run_snoc]
    simp only [World.step, hp]
  have hmsg : ((run cfg env (items ++ [.make c.row.name toClose])).sch c.row.name).phase = .sent
      ⟨((run cfg env items).sch c.row.name).count, ⟨((run cfg env items).sch c.row.name).svc.active, [],
        ((run cfg env items).sch c.row.name).svc.closed⟩⟩ := by
    rw [hrun1, setSch_sch, if_pos rfl]
    simp only [Sch.make, Sched.Svc.message]
    rw [if_neg (by omega)]
  have hgw1 : (run cfg env (items ++ [.make c.row.name toClose])).gw = (run cfg env items).gw := by rw [hrun1]; rfl
  have hsplit : items ++ [.make c.row.name toClose, .arrive c.row.name (.whole now) true] =
      (items ++ [.make c.row.name toClose]) ++ [.arrive c.row.name (.whole now) true] := by simp
  have hi1 := run_inv cfg env c.row.name (items ++ [.make c.row.name toClose]) (fun i h => hfin i (by
    simp only [List.mem_append, List.mem_cons, List.not_mem_nil, or_false] at h ⊢
    rcases h with h | h
    · exact Or.inl h
    · exact Or.inr (Or.inl h)))
  generalize hnote : (⟨((run cfg env items).sch c.row.name).count, ⟨((run cfg env items).sch c.row.name).svc.active, [],
        ((run cfg env items).sch c.row.name).svc.closed⟩⟩ : Note) = note at hmsg
  have hc' := hc
  rw [hsplit, run_snoc, arrive_gw hmsg, Backend.step_clusters hi1.gw rfl] at hc'
  obtain ⟨c0, hc0, hcc⟩ := List.mem_map.1 hc'
  have hname : c0.row.name = c.row.name := by rw [← hcc, Backend.onAll_name]
  have hfind : (run cfg env (items ++ [.make c.row.name toClose])).gw.find c.row.name = some c0 := by
    have := Backend.sfind_mem hi1.gw.named.nodup hc0
    rwa [hname] at this
  have hs0 : ¬ StopRequested c0 := by
    intro h
    have h5 := Backend.finished_iff.1 h
    have : c = c0 := by
      rw [← hcc]
      simp only [Backend.acts, hfind, Backend.heartbeatActs]
      rw [if_pos (by simp; omega)]
      rfl
    have := (Backend.running33 (hi2.gw.inv c hc).1 hr).2
    rw [‹c = c0›] at this
    rw [this] at h5
    simp at h5
  have hr0 := handled hi1 hmsg hfind hs0
  have ht := target3 (hi1.gw.inv c0 hc0).1 hs0
  have ea : Backend.acts cfg (run cfg env (items ++ [.make c.row.name toClose])).gw (.heartbeat c.row.name (env.wire c.row.name note) now) =
      Backend.heartbeatActs c0 (env.wire c.row.name note) now := by simp only [Backend.acts, hfind]
  rw [ea] at hcc
  have hcnt : c.row.count = limited c.row.maxWorkers ((run cfg env items).sch c.row.name).count := by
    have h1 := Backend.hb_count (c := c0) now (by omega) hr0
    have h2 : c0.row.maxWorkers = c.row.maxWorkers := by
      rw [← hcc]
      exact (Backend.onAll_max _ c0).symm
    rw [hcc] at h1
    rw [h1, hbCount_limited, h2, ← hnote]
    rfl
  have hws : c.workers = c0.workers.map (Backend.hbW c0 (env.wire c.row.name note)) := by
    rw [← Backend.hb_workers now (by omega) hr0, hcc]
  -- who runs is connected
  have hconn : ∀ w ∈ c.workers, w.row.status = .running →
      ∃ y ∈ ((run cfg env items).sch c.row.name).svc.active, env.num y = w.row.name := by
    intro w' hw' hrun
    have hactive : w'.row.name ∈ (env.wire c.row.name note).active → ∃ y ∈ ((run cfg env items).sch c.row.name).svc.active, env.num y = w'.row.name := by
      intro h
      rw [← hnote] at h
      exact List.mem_map.1 h
    have hnc : w'.row.name ∉ (env.wire c.row.name note).closing := by rw [← hnote]; simp [Env.wire]
    have hruns : Runs ((run cfg env (items ++ [.make c.row.name toClose])).gw.ev cfg ((Taken.whole now).ev c.row.name (env.wire c.row.name note))) c.row.name w'.row.name := by
      refine ⟨c, ?_, rfl, w', hw', rfl, hrun⟩
      have := hc
      rw [hsplit, run_snoc, arrive_gw hmsg] at this
      exact this
    refine hactive ?_
    have hment : (env.wire c.row.name note).mentions w'.row.name := by
      rcases ev_runs hi1.gw _ hruns with h | ⟨m, now', e, h⟩
      · exact (hi1.sch.sent note hmsg).2.1 _ h
      · simp only [Taken.ev, Backend.Ev.opOf', Backend.Op.heartbeat.injEq] at e
        obtain ⟨-, rfl, -⟩ := e
        exact h.elim Or.inl (fun h => Or.inr (Or.inl h))
    apply Classical.byContradiction
    intro hna
    have hclosed : w'.row.name ∈ (env.wire c.row.name note).closed := (hment.resolve_left hna).resolve_left hnc
    rw [hws] at hw'
    obtain ⟨w, hwm, rfl⟩ := List.mem_map.1 hw'
    have hst : ¬ Backend.JobStatus.stopped.n ≤ w.row.status.n := by
      intro h5
      have : (Backend.hbW c0 (env.wire c.row.name note) w).row.status = w.row.status := by
        simp only [Backend.hbW]
        split
        · rename_i h
          obtain ⟨z, hz, e⟩ := List.mem_map.1 h
          obtain ⟨hz, h3⟩ := List.mem_filter.1 hz
          have hzm : z ∈ c0.workers := by
            rcases List.mem_append.1 hz with hz | hz <;> exact (List.mem_filter.1 hz).1
          have := Backend.name_inj (hi1.gw.inv c0 hc0).1.nodup hzm hwm e
          subst this
          have := of_decide_eq_true h3
          simp at this h5
          omega
        · rfl
      rw [this] at hrun
      rw [hrun] at h5
      simp at h5
    have hcls : Backend.hbClass (env.wire c.row.name note) w.row = .closed := by
      have a1 : w.row.name ∉ (env.wire c.row.name note).closing := hnc
      have a2 : w.row.name ∉ (env.wire c.row.name note).active := hna
      have a3 : w.row.name ∈ (env.wire c.row.name note).closed := hclosed
      simp only [Backend.hbClass, if_neg hst, if_neg a1, if_neg a2, if_pos a3]
    have hpend : (Backend.hbW c0 (env.wire c.row.name note) w).vol.pending = true := by
      simp only [Backend.hbW]
      rw [if_pos]
      exact List.mem_append.2 (Or.inl (List.mem_map.2 ⟨w, List.mem_filter.2 ⟨hwm, decide_eq_true hcls⟩, rfl⟩))
    have := (hq.2.2 (Backend.hbW c0 (env.wire c.row.name note) w) (by rw [hws]; exact List.mem_map_of_mem hwm)).1
    rw [hpend] at this
    simp at this
  refine ⟨?_, hconn⟩
  have hupper : (c.workers.filter (fun w => decide (w.row.status = .running))).length ≤ ((run cfg env items).sch c.row.name).svc.active.length := by
    have hnd : (Backend.names (c.workers.filter (fun w => decide (w.row.status = .running)))).Nodup :=
      (hi2.gw.inv c hc).1.nodup.sublist (List.Sublist.map _ List.filter_sublist)
    have hsub : Backend.names (c.workers.filter (fun w => decide (w.row.status = .running))) ⊆ ((run cfg env items).sch c.row.name).svc.active.map env.num := by
      intro x hx
      obtain ⟨w, hwm, rfl⟩ := List.mem_map.1 hx
      obtain ⟨hwm, h⟩ := List.mem_filter.1 hwm
      obtain ⟨y, hy, e⟩ := hconn w hwm (of_decide_eq_true h)
      exact List.mem_map.2 ⟨y, hy, e⟩
    have := hnd.length_le_of_subset hsub
    simpa [Backend.names] using this
  have hlow : c.row.count ≤ ((c.workers.filter (fun w => decide (w.row.status = .running))).length : Int) := by
    have : c.provided = (c.workers.filter (fun w => decide (w.row.status = .running))).length := by
      simp only [Backend.Cluster.provided]
      rw [hfe]
    rw [← this]
    simpa using hcount
  rw [hfe] at hlim
  rw [hcnt] at hlow
  generalize (c.workers.filter (fun w => decide (w.row.status = .running))).length = r at hlim hlow hupper ⊢
  cases hk : c.row.maxWorkers with
  | none => rw [hk] at hlim hlow; simp only [limited] at *; omega
  | some k => rw [hk] at hlim hlow; simp only [limited] at *; omega

end Verif.Fleet
