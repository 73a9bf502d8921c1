import Verif.Backend.Trans
/-
Heartbeats, timeout checks and status checks keep the invariant.
-/
set_option linter.unusedSimpArgs false
set_option linter.unusedVariables false
namespace Verif.Backend

/-- Some unstarted or submitted workers of a cluster that was not asked to stop become running. -/
theorem running_good {bulk : Bool} {c : Cluster} (h : Inv bulk c) (n : Nat) (ws : List Nat)
    (ht : c.row.target.n ≤ 3)
    (hs : ∀ w ∈ c.workers, w.row.name ∈ ws → w.row.status.n < 3) :
    Good bulk c [updWs n ws { status := some .running }] := by
  obtain ⟨hp, hv⟩ := h
  by_cases hn : ¬ c.row.name = n
  · exact Good.of_id ⟨hp, hv⟩ (by intro a ha; simp at ha; subst ha; exact updWs_off _ _ _ _ hn)
  have hn := Decidable.not_not.1 hn
  refine Good.one hp ?_
  rw [updWs_on _ _ _ _ hn]
  have hst : c.row.status.n < 4 := by
    have := hp.clo; omega
  have key (w : Worker) (hw : w ∈ c.workers) :
      (if w.row.name ∈ ws then
        { w with row := WUpd.app { status := some .running } w.row } else w) = w ∨
      w.row.status.n < 3 ∧ (if w.row.name ∈ ws then
        { w with row := WUpd.app { status := some .running } w.row } else w) =
        { w with row := { w.row with status := .running } } := by
    by_cases hm : w.row.name ∈ ws
    · right; exact ⟨hs w hw hm, by simp [hm, WUpd.app]⟩
    · left; simp [hm]
  refine ⟨hp.mapWorkers ?_ ?_ ?_, hv.mapWorkers ?_ ?_ ?_⟩
  · intro w hw; rcases key w hw with e | ⟨_, e⟩ <;> rw [e]
  · intro w hw; rcases key w hw with e | ⟨_, e⟩ <;> rw [e] <;> exact id
  · intro w hw
    have h1 := hp.ws w hw
    rcases key w hw with e | ⟨hlt, e⟩ <;> rw [e]
    · exact h1
    · exact ⟨h1.tg, fun h => by simp at h, fun h => by simp at h, h1.tclo, fun h => by omega,
        h1.ccl, fun h => by simp at h, fun h => by simp at h, h1.lop⟩
  · intro h4; omega
  · intro _ _ _ w hw
    rcases key w hw with e | ⟨hlt, e⟩ <;> rw [e]
    · exact id
    · simp [Worker.supplies]
  · intro w hw
    have h1 := hv.ws w hw
    have h2 := hp.ws w hw
    rcases key w hw with e | ⟨hlt, e⟩ <;> rw [e]
    · exact h1
    · refine ⟨fun _ => Or.inr rfl, h1.flT, fun a b => h1.nw3 a (by omega), fun a b => ?_,
        fun a => by simp at a, fun a => ?_⟩
      · have := h2.tclo a; omega
      · have := (hv.flT a).1; omega

/-- Some workers are marked as expected to close. -/
theorem expected_good {bulk : Bool} {c : Cluster} (h : Inv bulk c) (n : Nat) (ws : List Nat) :
    Good bulk c [updWs n ws { closeExpected := some true }] := by
  obtain ⟨hp, hv⟩ := h
  by_cases hn : ¬ c.row.name = n
  · exact Good.of_id ⟨hp, hv⟩ (by intro a ha; simp at ha; subst ha; exact updWs_off _ _ _ _ hn)
  have hn := Decidable.not_not.1 hn
  refine Good.one hp ?_
  rw [updWs_on _ _ _ _ hn]
  have key (w : Worker) :
      (if w.row.name ∈ ws then
        { w with row := WUpd.app { closeExpected := some true } w.row } else w) = w ∨
      (if w.row.name ∈ ws then
        { w with row := WUpd.app { closeExpected := some true } w.row } else w) =
        { w with row := { w.row with closeExpected := true } } := by
    by_cases hm : w.row.name ∈ ws
    · right; simp [hm, WUpd.app]
    · left; simp [hm]
  refine ⟨hp.mapWorkers ?_ ?_ ?_, hv.mapWorkers ?_ ?_ ?_⟩
  · intro w hw; rcases key w with e | e <;> rw [e]
  · intro w hw; rcases key w with e | e <;> rw [e] <;> exact id
  · intro w hw
    have h1 := hp.ws w hw
    rcases key w with e | e <;> rw [e]
    · exact h1
    · exact ⟨h1.tg, h1.fin, h1.clo, h1.tclo, h1.cfin, h1.ccl, h1.lfin, h1.lcre, h1.lop⟩
  · intro h4 w hw
    rcases key w with e | e <;> rw [e] <;> exact id
  · intro _ _ _ w hw
    rcases key w with e | e <;> rw [e]
    · exact id
    · simp [Worker.supplies]
  · intro w hw
    have h1 := hv.ws w hw
    rcases key w with e | e <;> rw [e]
    · exact h1
    · exact ⟨h1.flS, h1.flT, h1.nw3, h1.nw4, h1.nw5, h1.cT⟩

theorem hbCount_le (mx : Option Nat) (count : Int) (k : Nat) (h : mx = some k) :
    hbCount mx count ≤ k := by
  subst h
  simp only [hbCount]
  split <;> omega

theorem hbClusterUpdate_cases {c : Cluster} {m : Msg} {u : CUpd} (h : hbClusterUpdate c m = some u) :
    ∃ r : CRow, u.app c.row = r ∧ r.name = c.row.name ∧ r.status = c.row.status ∧ r.target = c.row.target ∧
      r.maxWorkers = c.row.maxWorkers ∧ r.stopTime = c.row.stopTime ∧
      (r.count = c.row.count ∨ r.count = hbCount c.row.maxWorkers m.count) ∧
      (c.row.status.n = 3 → r.sched = c.row.sched ∧ r.dash = c.row.dash) := by
  simp only [hbClusterUpdate] at h
  refine ⟨_, rfl, ?_⟩
  split at h
  · split at h
    · simp at h
    · simp at h; subst h
      simp [CUpd.app, *]
  · rename_i hr
    simp at h; subst h
    rw [n_eq3] at hr
    simp only [CUpd.app]
    refine ⟨trivial, rfl, rfl, trivial, trivial, ?_, fun h3 => absurd h3 hr⟩
    split
    · left; rfl
    · right; rfl

/-- The addresses and the count a heartbeat reports are stored. -/
theorem hbUpdate_good {bulk : Bool} {c : Cluster} (h : Inv bulk c) (m : Msg) (u : CUpd)
    (hu : hbClusterUpdate c m = some u) (ht : c.row.target.n ≤ 3) :
    Good bulk c [updC1 c.row.name u, putC1 c.row.name] := by
  obtain ⟨hp, hv⟩ := h
  obtain ⟨r, e, r1, r2, r3, r4, r5, r6, r7⟩ := hbClusterUpdate_cases hu
  have hst : c.row.status.n < 4 := by
    have := hp.clo; omega
  have h1 : CP bulk { c with row := r } := by
    refine ⟨by simpa [r3] using hp.tgt, by simpa [r2, r3] using hp.clo, ?_, by simpa [r2, r5] using hp.stt,
      ?_, hp.nodup, by simpa [r2] using hp.lfin, hp.sep, by simpa [r2] using hp.lcre, hp.lnm, ?_⟩
    · intro k hk
      simp only [r4] at hk
      refine ⟨?_, (hp.cnt k hk).2⟩
      rcases r6 with e6 | e6 <;> simp only [e6]
      · exact (hp.cnt k hk).1
      · exact hbCount_le _ _ k hk
    · intro h3
      simp only [r2] at h3
      simp only [(r7 h3).1]
      exact hp.sch h3
    · simpa [r2, r3] using hp.ws
  refine Good.two hp ?_ ?_
  · rw [updC1_on _ _ _ rfl, e]; exact h1
  · rw [updC1_on _ _ _ rfl, e, putC1_on _ _ (by exact r1)]
    refine ⟨⟨h1.tgt, h1.clo, h1.cnt, h1.stt, h1.sch, h1.nodup, h1.lfin, h1.sep, h1.lcre, h1.lnm, h1.ws⟩, ?_⟩
    refine ⟨by simpa [r2] using hv.flS, by simpa [r2] using hv.flT, fun _ _ => rfl, fun _ _ => Or.inl rfl,
      fun _ _ _ => rfl, by simpa [r2] using hv.ready, by simpa [r2] using hv.shut, ?_, ?_,
      by simpa [r2] using hv.rt3, ?_, fun _ _ h => by simp at h, fun _ _ h => by simp at h, hv.ws⟩
    · intro a ha
      have h2 := hv.rt1 a ha
      have h3 : c.row.status.n = 3 := by omega
      simp only [r2, (r7 h3).1]; exact h2
    · intro a ha
      have h2 := hv.rt2 a ha
      have h3 : c.row.status.n = 3 := by omega
      simp only [r2, (r7 h3).2]; exact h2
    · intro hadd h34
      simp only [r2] at h34
      have h3 : c.row.status.n = 3 := by omega
      simp only [(r7 h3).1, (r7 h3).2]
      exact hv.rt4 hadd h34

/-! Classes of workers in a heartbeat -/

theorem mem_hbPick {c : Cluster} {m : Msg} {k : HbClass} {w : Worker} :
    w ∈ hbPick c m k ↔ w ∈ c.workers ∧ hbClass m w.row = k := by
  simp [hbPick]

theorem hbToStop_sub {c : Cluster} {m : Msg} {w : Worker} (h : w ∈ hbToStop c m) :
    w ∈ c.workers ∧ (hbClass m w.row = .created ∨ hbClass m w.row = .submitted) := by
  simp only [hbToStop] at h
  split at h
  · have := List.mem_of_mem_take h
    simp only [List.mem_append, mem_hbPick] at this
    rcases this with ⟨a, b⟩ | ⟨a, b⟩
    · exact ⟨a, Or.inl b⟩
    · exact ⟨a, Or.inr b⟩
  · simp at h

theorem hbTarget_cases (c : Cluster) (m : Msg) (x : Nat) :
    (hbTarget c m x = {} ∧ x ∉ hbTargeted c m) ∨
    ∃ t : JobStatus, 5 ≤ t.n ∧ hbTarget c m x = { target := some t } ∧ x ∈ hbTargeted c m := by
  simp only [hbTarget, hbTargeted, List.mem_append]
  have sub (p : Worker → Bool) (h : x ∈ names ((hbPick c m .closed).filter p)) :
      x ∈ names (hbPick c m .closed) := by
    obtain ⟨w, hw, e⟩ := List.mem_map.1 h
    exact List.mem_map.2 ⟨w, (List.mem_filter.1 hw).1, e⟩
  split
  · rename_i h
    right
    refine ⟨.stopped, by simp, rfl, ?_⟩
    rcases h with h | h
    · exact Or.inl (sub _ h)
    · exact Or.inr h
  · rename_i h
    split
    · rename_i h'
      right
      exact ⟨.failed, by simp, rfl, Or.inl (sub _ h')⟩
    · rename_i h'
      left
      refine ⟨rfl, ?_⟩
      rintro (hx | hx)
      · obtain ⟨w, hw, e⟩ := List.mem_map.1 hx
        by_cases hc : w.row.closeExpected = true
        · exact h (Or.inl (List.mem_map.2 ⟨w, List.mem_filter.2 ⟨hw, hc⟩, e⟩))
        · exact h' (List.mem_map.2 ⟨w, List.mem_filter.2 ⟨hw, by simpa using hc⟩, e⟩)
      · exact h (Or.inr hx)

/-- Targets are updated: statuses and names stay. -/
theorem targets_status (f : Nat → WUpd) (h : ∀ x, (f x).status = none) (r : WRow) :
    ((f r.name).app r).status = r.status := by
  simp [WUpd.app, h]

/-- What a heartbeat stores about the cluster itself. -/
def hbFirst (c : Cluster) (m : Msg) : List Act :=
  match hbClusterUpdate c m with
  | none => []
  | some u => [updC1 c.row.name u, putC1 c.row.name]

theorem hbFirst_good {bulk : Bool} {c : Cluster} (h : Inv bulk c) (m : Msg) (ht : c.row.target.n ≤ 3) :
    Good bulk c (hbFirst c m) ∧ (onAll c (hbFirst c m)).workers = c.workers ∧
    (onAll c (hbFirst c m)).row.target = c.row.target := by
  unfold hbFirst
  cases hcu : hbClusterUpdate c m with
  | none => exact ⟨Good.nil h, rfl, rfl⟩
  | some u =>
    obtain ⟨r, er, r1, r2, r3, r4, r5, r6, r7⟩ := hbClusterUpdate_cases hcu
    refine ⟨hbUpdate_good h m u hcu ht, ?_⟩
    dsimp only
    rw [onAll_cons, onAll_cons, onAll_nil, updC1_on _ _ _ rfl, er, putC1_on _ _ r1]
    exact ⟨rfl, r3⟩

/-- A heartbeat keeps the invariant. -/
theorem heartbeat_good {bulk : Bool} {c : Cluster} (h : Inv bulk c) (m : Msg) (now : Int) :
    Good bulk c (heartbeatActs c m now) := by
  simp only [heartbeatActs]
  split
  · exact Good.nil h
  · rename_i ht
    have ht : c.row.target.n ≤ 3 := by simpa using ht
    have g1 : Good bulk c [.volC c.row.name (fun v => { v with lastHb := some now })] :=
      vol_good h _ _ (fun v => ⟨some now, v.failCount, rfl⟩)
    split
    · simpa using g1
    · rename_i hnr
      have e1 : onAll c [.volC c.row.name (fun v => { v with lastHb := some now })] =
          { c with vol := { c.vol with lastHb := some now } } := by
        rw [onAll_cons, onAll_nil, volC_on _ _ _ rfl]
      obtain ⟨g2, w2, t2⟩ := hbFirst_good (m := m) g1.2 (by rw [e1]; exact ht)
      have e2 : hbFirst (onAll c [.volC c.row.name (fun v => { v with lastHb := some now })]) m =
          hbFirst c m := by rw [e1]; rfl
      rw [e2] at g2 w2 t2
      have g12 := Good.append g1 g2
      rw [← onAll_append] at w2 t2
      rw [e1] at w2 t2
      have n2 := onAll_name c ([Act.volC c.row.name (fun v => { v with lastHb := some now })] ++ hbFirst c m)
      generalize ec2 : onAll c ([Act.volC c.row.name (fun v => { v with lastHb := some now })] ++
        hbFirst c m) = c2 at w2 t2 n2
      dsimp only at w2 t2
      have i2 := g12.2
      rw [ec2] at i2
      -- the targets
      have g3 := retarget_good i2 (fun k x => if k = c.row.name then hbTarget c m x else {})
        (fun k x => k == c.row.name && decide (x ∈ hbTargeted c m)) (by
          intro x
          rw [n2]
          rcases hbTarget_cases c m x with ⟨a, b⟩ | ⟨t, ht', a, b⟩
          · left; simp [a, b]
          · right; exact ⟨t, ht', by simp [a], by simp [b]⟩)
      have hmid : (onAll c2 [.updW (fun k x => if k = c.row.name then hbTarget c m x else {}),
            .putW (fun k x => k == c.row.name && decide (x ∈ hbTargeted c m))]).row.target = c.row.target ∧
          ∀ w3 ∈ (onAll c2 [.updW (fun k x => if k = c.row.name then hbTarget c m x else {}),
            .putW (fun k x => k == c.row.name && decide (x ∈ hbTargeted c m))]).workers,
            ∃ w ∈ c.workers, w3.row.name = w.row.name ∧ w3.row.status = w.row.status := by
        rw [onAll_cons, onAll_cons, onAll_nil, updW_on, putW_on]
        refine ⟨t2, ?_⟩
        intro w3 hw3
        simp only [w2, n2, List.map_map] at hw3
        obtain ⟨w, hw, rfl⟩ := List.mem_map.1 hw3
        refine ⟨w, hw, ?_⟩
        have : (hbTarget c m w.row.name).status = none := by
          rcases hbTarget_cases c m w.row.name with ⟨a, b⟩ | ⟨t, ht', a, b⟩ <;> simp [a]
        simp only [Function.comp, if_true]
        split <;> simp [WUpd.app, this]
      have n3 : (onAll c2 [.updW (fun k x => if k = c.row.name then hbTarget c m x else {}),
            .putW (fun k x => k == c.row.name && decide (x ∈ hbTargeted c m))]).row.name = c.row.name := by
        rw [onAll_name, n2]
      have g123 := Good.append g12 (by rw [ec2]; exact g3)
      rw [← ec2, ← onAll_append] at hmid n3
      generalize ec3 : onAll c (([Act.volC c.row.name (fun v => { v with lastHb := some now })] ++
        hbFirst c m) ++ [.updW (fun k x => if k = c.row.name then hbTarget c m x else {}),
            .putW (fun k x => k == c.row.name && decide (x ∈ hbTargeted c m))]) = c3 at hmid n3
      have i3 := g123.2
      rw [ec3] at i3
      obtain ⟨m1, m2⟩ := hmid
      -- newly running
      have g4 : Good bulk c3
          (if hbNewlyRunning c m = [] then []
           else [.volC c.row.name (fun v => { v with failCount := 0 }),
             updWs c.row.name (hbNewlyRunning c m) { status := some .running }]) := by
        split
        · exact Good.nil i3
        · have ga := vol_good i3 c.row.name (fun v => { v with failCount := 0 })
            (fun v => ⟨v.lastHb, 0, rfl⟩)
          refine Good.append (l := [_]) (l' := [_]) ga ?_
          refine running_good ga.2 _ _ ?_ ?_
          · rw [onAll_cons, onAll_nil, volC_on _ _ _ n3]
            simp only [m1]; exact ht
          · intro w hw hx
            rw [onAll_cons, onAll_nil, volC_on _ _ _ n3] at hw
            obtain ⟨w0, hw0, a, b⟩ := m2 w hw
            simp only [hbNewlyRunning] at hx
            obtain ⟨y, hy, e⟩ := List.mem_map.1 hx
            obtain ⟨hy, hlt⟩ := List.mem_filter.1 hy
            have hy' : y ∈ c.workers := by
              rcases List.mem_append.1 hy with h | h <;> exact (mem_hbPick.1 h).1
            have : w0 = y := name_inj h.1.nodup hw0 hy' (by rw [← a, ← e])
            rw [b, this]
            exact decide_eq_true_iff.1 hlt
      have g1234 := Good.append g123 (by rw [ec3]; exact g4)
      have := Good.append g1234 (expected_good g1234.2 c.row.name (names (hbPick c m .closing)))
      simp only [List.append_assoc] at this ⊢
      exact this

end Verif.Backend
