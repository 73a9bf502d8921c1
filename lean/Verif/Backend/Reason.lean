import Verif.Backend.WaitProps
/-
Why a cluster ended, and workers that run: what no operation changes about them.
-/
set_option linter.unusedSimpArgs false
set_option linter.unusedVariables false
namespace Verif.Backend

/-- The event reports that the scheduler of cluster `n` could not be started. -/
def Op.reportsFailure (n : Nat) : Op → Bool
  | .endStartC m false => m == n
  | _ => false

/-- No status check that asks about cluster `n` is under way. -/
def Unchecked (n : Nat) (s : State) : Prop := ∀ l, s.chkC = some l → n ∉ l

/-- The same for events; a crash in the middle of the operation may have stored it. -/
def Ev.reportsFailure (n : Nat) : Ev → Bool
  | .op o => o.reportsFailure n
  | .crash o _ _ => o.reportsFailure n

/-! ### The outcome of a cluster -/

/-- The cluster is to end as `t`, and did if it ended. -/
def Ends (n : Nat) (t : JobStatus) (c : Cluster) : Prop :=
  c.row.name = n ∧ c.row.target = t ∧ (5 ≤ c.row.status.n → c.row.status = t)

/-- The micro-action keeps it so. -/
def Act.keepsEnd (n : Nat) (t : JobStatus) : Act → Prop
  | .updC f => ((f n).target = none ∨ (f n).target = some t) ∧ ∀ s, (f n).status = some s → 5 ≤ s.n → s = t
  | _ => True

theorem ends_act {n : Nat} {t : JobStatus} {a : Act} (h : a.keepsEnd n t) {c : Cluster} (hc : Ends n t c) :
    Ends n t (a.onCluster c) := by
  obtain ⟨h1, h2, h3⟩ := hc
  subst h1
  cases a with
  | updC f =>
    obtain ⟨k1, k2⟩ := h
    refine ⟨rfl, ?_, ?_⟩
    · simp only [Act.onCluster, CUpd.app]
      rcases k1 with e | e <;> rw [e]
      · exact h2
      · rfl
    · simp only [Act.onCluster, CUpd.app]
      cases e : (f c.row.name).status with
      | none => exact h3
      | some s => exact k2 s e
  | updW f => exact ⟨rfl, h2, h3⟩
  | putW f => exact ⟨rfl, h2, h3⟩
  | volW n w f => exact ⟨rfl, h2, h3⟩
  | newC r => exact ⟨rfl, h2, h3⟩
  | purge p => exact ⟨rfl, h2, h3⟩
  | newW n r => simp only [Act.onCluster]; split <;> exact ⟨rfl, h2, h3⟩
  | putC f => simp only [Act.onCluster]; split <;> exact ⟨rfl, h2, h3⟩
  | volC n f => simp only [Act.onCluster]; split <;> exact ⟨rfl, h2, h3⟩

/-- All micro-actions of the list do. -/
def KeepsEnd (n : Nat) (t : JobStatus) (l : List Act) : Prop := ∀ a ∈ l, a.keepsEnd n t

section
variable {n : Nat} {t : JobStatus}

theorem KeepsEnd.nil : KeepsEnd n t [] := fun _ h => nomatch h
theorem KeepsEnd.cons {a : Act} {l : List Act} (h : a.keepsEnd n t) (h' : KeepsEnd n t l) : KeepsEnd n t (a :: l) := by
  intro b hb
  rcases List.mem_cons.1 hb with rfl | hb
  · exact h
  · exact h' b hb
theorem KeepsEnd.append {l l' : List Act} (h : KeepsEnd n t l) (h' : KeepsEnd n t l') : KeepsEnd n t (l ++ l') := by
  intro b hb
  rcases List.mem_append.1 hb with hb | hb
  · exact h b hb
  · exact h' b hb
theorem KeepsEnd.ite {p : Prop} [Decidable p] {l l' : List Act} (h : p → KeepsEnd n t l) (h' : ¬ p → KeepsEnd n t l') :
    KeepsEnd n t (if p then l else l') := by
  split
  · rename_i e; exact h e
  · rename_i e; exact h' e
theorem KeepsEnd.on {l : List Act} : ∀ {c : Cluster}, KeepsEnd n t l → Ends n t c → Ends n t (onAll c l) := by
  induction l with
  | nil => exact fun _ h => h
  | cons a l ih => exact fun h hc => ih (fun b hb => h b (by simp [hb])) (ends_act (h a (by simp)) hc)

theorem ke_of {a : Act} (h : ∀ f, a ≠ .updC f) : a.keepsEnd n t := by
  cases a with
  | updC f => exact absurd rfl (h f)
  | _ => trivial

theorem ke_updC1 {m : Nat} {u : CUpd} (h1 : m = n → u.target = none ∨ u.target = some t)
    (h2 : m = n → ∀ s, u.status = some s → 5 ≤ s.n → s = t) : (updC1 m u).keepsEnd n t := by
  simp only [updC1, Act.keepsEnd]
  by_cases e : n = m
  · rw [if_pos e]; exact ⟨h1 e.symm, h2 e.symm⟩
  · rw [if_neg e]; exact ⟨Or.inl rfl, by simp⟩

theorem ke_if {p : Nat → Prop} [DecidablePred p] (h : p n → t = .failed) :
    (Act.updC (fun m => if p m then { target := some .failed } else {})).keepsEnd n t := by
  simp only [Act.keepsEnd]
  by_cases e : p n
  · rw [if_pos e, h e]; exact ⟨Or.inr rfl, by simp⟩
  · rw [if_neg e]; exact ⟨Or.inl rfl, by simp⟩

theorem ke_create {m : Nat} {now : Int} : ∀ {k next : Nat}, KeepsEnd n t (createWorkers m next now k)
  | 0, _ => .nil
  | k + 1, next => .cons trivial (.cons trivial ke_create)

theorem ke_stopped {c : Cluster} (h : c.row.name = n → c.row.target = t) (now : Int) : KeepsEnd n t (stoppedActs c now) :=
  .cons trivial (.cons (ke_updC1 (fun _ => Or.inl rfl) (fun e s hs _ => by
    simp at hs; subst hs; exact h e)) (.cons trivial .nil))

theorem ke_wstopped {cfg : Cfg} {c : Cluster} {w : WRow} {now : Int} : KeepsEnd n t (workerStoppedActs cfg c w now) :=
  .append (.cons trivial .nil) (.ite (fun _ => .cons trivial .nil) (fun _ => .nil))

theorem ke_reconcileC {cfg : Cfg} {next : Nat} {c : Cluster} {now : Int} (ht : 5 ≤ t.n) (h : c.row.name = n → c.row.target = t) :
    KeepsEnd n t (reconcileClusterActs cfg next c now) := by
  simp only [reconcileClusterActs]
  refine .ite (fun _ => .nil) (fun _ => .ite (fun _ => .ite (fun _ => .ite (fun _ => .ite (fun _ => ?_)
    (fun _ => ke_stopped h now)) (fun _ => .nil)) (fun _ => ?_)) (fun _ => .ite (fun hr => .ite (fun _ => ?_)
    (fun _ => .append (.ite (fun _ => ?_) (fun _ => .nil)) (.ite (fun _ => .append ?_ ?_) (fun _ => .nil)))) (fun _ => .nil)))
  · exact .cons trivial .nil
  · exact .append (.append (.cons trivial (.cons trivial (.cons (ke_updC1 (fun _ => Or.inl rfl)
      (fun _ s hs h5 => by simp at hs; subst hs; simp at h5)) .nil))) (.ite (fun _ => .cons trivial .nil) (fun _ => .nil)))
      (.cons trivial .nil)
  · exact .cons trivial .nil
  · exact .cons (ke_updC1 (fun _ => Or.inl rfl) (fun _ s hs h5 => by simp at hs; subst hs; simp at h5)) (.cons trivial .nil)
  · exact .cons trivial .nil
  · refine .ite (fun _ => .cons (ke_updC1 (fun e => ?_) (by simp)) (.cons trivial .nil)) (fun _ => ke_create)
    have := h e
    rw [hr] at this; subst this; simp at ht

theorem ke_reconcileW {cfg : Cfg} {c : Cluster} {w : WRow} {now : Int} : KeepsEnd n t (reconcileWorkerActs cfg c w now) := by
  simp only [reconcileWorkerActs]
  exact .ite (fun _ => .nil) (fun _ => .ite (fun _ => .append (.ite (fun _ => .nil) (fun _ => .cons trivial .nil))
    (.ite (fun _ => .cons trivial .nil) (fun _ => .nil))) (fun _ => .ite (fun _ => .ite (fun _ => .cons trivial (.cons trivial .nil))
    (fun _ => ke_wstopped)) (fun _ => .ite (fun _ => .cons trivial (.cons trivial .nil)) (fun _ => .nil))))

end

theorem acts_ends {cfg : Cfg} {s : State} (hn : Named s) {o : Op} {d : Cluster} (hd : d ∈ s.clusters) {t : JobStatus}
    (ht : 5 ≤ t.n) (hdt : d.row.target = t) (ho : t = .failed ∨ o.reportsFailure d.row.name = false ∧ Unchecked d.row.name s) :
    KeepsEnd d.row.name t (acts cfg s o) := by
  have same {c : Cluster} {m : Nat} (hc : s.find m = some c) (e : c.row.name = d.row.name) : c = d :=
    cname_inj hn.nodup (sfind_spec hc).1 hd e
  have inactive : ∀ c ∈ s.clusters, c.row.name = d.row.name → c.row.active = false := by
    intro c hc e
    rw [cname_inj hn.nodup hc hd e, CRow.active, hdt]
    exact decide_eq_false (fun h => absurd h (Nat.not_lt.2 ht))
  cases o with
  | startCluster user mx now => exact .cons trivial (.cons trivial .nil)
  | stopCluster m f =>
    simp only [acts]
    split
    · exact .nil
    · rename_i c hc
      refine .ite (fun h3 => .cons (ke_updC1 (fun e => ?_) (by simp)) (.cons trivial .nil)) (fun _ => .nil)
      have := same hc e
      subst this
      rw [hdt] at h3
      exact absurd ht (Nat.not_le.2 (Nat.lt_of_le_of_lt h3 (by decide)))
  | heartbeat m msg now =>
    simp only [acts]
    split
    · exact .nil
    · rename_i c hc
      simp only [heartbeatActs]
      refine .ite (fun _ => .nil) (fun h3 => .append (.cons trivial .nil) (.ite (fun _ => .nil)
        (fun _ => .append (.append (.append ?_ (.cons trivial (.cons trivial .nil))) (.ite (fun _ => .nil)
          (fun _ => .cons trivial (.cons trivial .nil)))) (.cons trivial .nil))))
      split
      · exact .nil
      · rename_i u hu
        have : u.target = none ∧ u.status = none := by
          simp only [hbClusterUpdate] at hu
          repeat' split at hu
          all_goals simp at hu
          all_goals subst hu; exact ⟨rfl, rfl⟩
        exact .cons (ke_updC1 (fun _ => Or.inl this.1) (fun _ s hs => by rw [this.2] at hs; cases hs)) (.cons trivial .nil)
  | shutdown =>
    refine .cons (ke_if (fun hm => ?_)) (.cons trivial .nil)
    obtain ⟨c, hc, e⟩ := List.mem_map.1 hm
    have := inactive c (List.mem_filter.1 hc).1 e
    rw [(List.mem_filter.1 hc).2] at this; cases this
  | checkTimeouts now =>
    refine .ite (fun _ => .nil) (fun _ => .cons (ke_if (fun hm => ?_)) (.cons trivial (.cons trivial (.cons trivial .nil))))
    obtain ⟨c, hc, e⟩ := List.mem_map.1 hm
    have h1 := inactive c (List.mem_filter.1 hc).1 e
    have h2 := (List.mem_filter.1 hc).2
    simp [timeoutCluster, h1] at h2
  | checkClusters => exact .nil
  | checkWorkers => exact .nil
  | checkClustersEnd statuses =>
    simp only [acts]
    split
    · exact .nil
    · rename_i l hl
      rcases ho with rfl | ho
      · exact .cons (ke_if (fun _ => rfl)) (.cons trivial .nil)
      · refine .cons (ke_if (fun hm => ?_)) (.cons trivial .nil)
        unfold bad at hm
        obtain ⟨p, hp, e⟩ := List.mem_map.1 hm
        have hz := (List.of_mem_zip (List.mem_filter.1 hp).1).1
        exact absurd (e ▸ hz) (ho.2 l hl)
  | checkWorkersEnd statuses =>
    simp only [acts]
    split
    · exact .nil
    · refine .append (.append (.cons trivial .nil) (fun a ha => ?_)) (.cons trivial .nil)
      obtain ⟨p, -, rfl⟩ := List.mem_map.1 ha
      trivial
  | cleanup now => exact .cons trivial .nil
  | getC m now =>
    simp only [acts]
    split
    · exact .nil
    · rename_i c hc
      exact .ite (fun _ => .cons trivial (ke_reconcileC ht (fun e => by rw [same hc e]; exact hdt))) (fun _ => .nil)
  | getW m w now =>
    simp only [acts]
    split
    · exact .nil
    · split
      · exact .nil
      · exact .ite (fun _ => .cons trivial ke_reconcileW) (fun _ => .nil)
  | yieldC m st =>
    simp only [acts]
    split
    · exact .nil
    · exact .ite (fun _ => .cons (ke_updC1 (fun _ => Or.inl rfl) (by simp)) .nil) (fun _ => .nil)
  | yieldW m w st =>
    simp only [acts]
    split
    · exact .nil
    · split
      · exact .nil
      · exact .ite (fun _ => .cons trivial .nil) (fun _ => .nil)
  | endStartC m ok =>
    simp only [acts]
    split
    · exact .nil
    · refine .ite (fun _ => .append (.ite (fun _ => .cons (ke_updC1 (fun _ => Or.inl rfl) (fun _ s hs h5 => by
          simp at hs; subst hs; simp at h5)) .nil) (fun hok => .cons (ke_updC1 (fun e => ?_) (fun _ s hs h5 => by
          simp at hs; subst hs; simp at h5)) (.cons trivial .nil))) (.cons trivial .nil)) (fun _ => .nil)
      rcases ho with rfl | ho
      · exact Or.inr rfl
      · cases ok with
        | true => simp at hok
        | false => simp [Op.reportsFailure, e] at ho
  | endStopC m now =>
    simp only [acts]
    split
    · exact .nil
    · rename_i c hc
      exact .ite (fun _ => .append (.append (.cons trivial .nil) (ke_stopped (fun e => by rw [same hc e]; exact hdt) now))
        (.cons trivial .nil)) (fun _ => .nil)
  | endStartW m w ok =>
    simp only [acts]
    split
    · exact .nil
    · split
      · exact .nil
      · exact .ite (fun _ => .append (.ite (fun _ => .cons trivial .nil) (fun _ => .cons trivial (.cons trivial (.cons trivial .nil))))
          (.cons trivial (.cons trivial .nil))) (fun _ => .nil)
  | endStopW m w now =>
    simp only [acts]
    split
    · exact .nil
    · split
      · exact .nil
      · exact .ite (fun _ => .append ke_wstopped (.cons trivial .nil)) (fun _ => .nil)

/-- A cluster that an operation, or a part of it, leaves is as the micro-actions made it, or as it was. -/
theorem prefix_onAll {cfg : Cfg} {s : State} (hi : SInv cfg s) {o : Op} {k : Nat} {c d : Cluster} (hc : c ∈ s.clusters)
    (hd : d ∈ (s.applyAll ((acts cfg s o).take k)).clusters) (hn : d.row.name = c.row.name) :
    d = onAll c ((acts cfg s o).take k) ∨ d = c := by
  by_cases ho : o.plain = true
  · left
    rw [(applyAll_plain s _ ((prefix_sp hi o k).2 ho)).1] at hd
    obtain ⟨x, hx, rfl⟩ := List.mem_map.1 hd
    rw [onAll_name] at hn
    rw [cname_inj hi.named.nodup hx hc hn]
  · right
    cases o with
    | startCluster user mx now =>
      obtain ⟨e1, e2, e3, e4⟩ := start_state hi.named user mx now
      have old {x : Cluster} (hx : x ∈ s.clusters ++ [d]) (h : x = d) (hd : d ∈ s.clusters) : d = c :=
        cname_inj hi.named.nodup hd hc hn
      have new (h : d.row.name = s.next) : d = c := by
        have : c.row.name < s.next := (hi.named.bound c hc).1
        omega
      match k with
      | 0 => exact cname_inj hi.named.nodup hd hc hn
      | 1 =>
        replace hd : d ∈ (s.apply (.newC (newRow s.next user mx now))).clusters := hd
        rw [e1, List.mem_append] at hd
        rcases hd with hd | hd
        · exact cname_inj hi.named.nodup hd hc hn
        · rw [List.mem_singleton] at hd; exact new (by rw [hd]; rfl)
      | k + 2 =>
        have et : (acts cfg s (.startCluster user mx now)).take (k + 2) =
          [.newC (newRow s.next user mx now), putC1 s.next] := by simp [acts, startClusterActs]
        rw [et] at hd
        replace hd : d ∈ ((s.apply (.newC (newRow s.next user mx now))).apply (putC1 s.next)).clusters := hd
        rw [e2, List.mem_append] at hd
        rcases hd with hd | hd
        · exact cname_inj hi.named.nodup hd hc hn
        · rw [List.mem_singleton] at hd; exact new (by rw [hd]; rfl)
    | cleanup now =>
      match k with
      | 0 => exact cname_inj hi.named.nodup hd hc hn
      | k + 1 =>
        have et : (acts cfg s (.cleanup now)).take (k + 1) = cleanupActs cfg s now := by simp [acts, cleanupActs]
        rw [et] at hd
        exact cname_inj hi.named.nodup (List.mem_filter.1 hd).1 hc hn
    | _ => simp [Op.plain] at ho

/-- What one event makes of a cluster: some of the micro-actions of its operation, and a reload after a crash. -/
theorem ev_onAll {cfg : Cfg} {s : State} (hi : SInv cfg s) {e : Ev} {c d : Cluster} (hc : c ∈ s.clusters)
    (hd : d ∈ (s.ev cfg e).clusters) (hn : d.row.name = c.row.name) :
    ∃ o k, (e = .op o ∧ k = (acts cfg s o).length ∧ (d = onAll c (acts cfg s o) ∨ d = c)) ∨
      ∃ now x, e = .crash o k now ∧ d = reload now x ∧ (x = onAll c ((acts cfg s o).take k) ∨ x = c) := by
  cases e with
  | op o =>
    refine ⟨o, _, Or.inl ⟨rfl, rfl, ?_⟩⟩
    have h : d ∈ (s.applyAll ((acts cfg s o).take (acts cfg s o).length)).clusters := by rw [take_all]; exact hd
    have := prefix_onAll hi hc h hn
    rwa [take_all] at this
  | crash o k now =>
    refine ⟨o, k, Or.inr ⟨now, ?_⟩⟩
    have sp := (prefix_sp hi o k).1
    simp only [State.ev] at hd
    rw [restart_clusters sp.synced sp.named now] at hd
    obtain ⟨x, hx, rfl⟩ := List.mem_map.1 hd
    exact ⟨x, rfl, rfl, prefix_onAll hi hc hx hn⟩

theorem ev_ends {cfg : Cfg} {s : State} (hi : SInv cfg s) {e : Ev} {c d : Cluster} (hc : c ∈ s.clusters)
    (hd : d ∈ (s.ev cfg e).clusters) (hn : d.row.name = c.row.name) {t : JobStatus} (ht : 5 ≤ t.n)
    (hE : Ends c.row.name t c) (ho : t = .failed ∨ e.reportsFailure c.row.name = false ∧ Unchecked c.row.name s) : Ends c.row.name t d := by
  obtain ⟨o, k, ⟨rfl, -, h⟩ | ⟨now, x, rfl, rfl, h⟩⟩ := ev_onAll hi hc hd hn
  · rcases h with rfl | rfl
    · exact (acts_ends hi.named hc ht hE.2.1 ho).on hE
    · exact hE
  · have : Ends c.row.name t x := by
      rcases h with rfl | rfl
      · exact KeepsEnd.on (fun a ha => acts_ends hi.named hc ht hE.2.1 ho a (List.mem_of_mem_take ha)) hE
      · exact hE
    exact this

/-- A cluster that is to end is not asked about by later checks. -/
theorem unchecked_ev {cfg : Cfg} {s : State} (hi : SInv cfg s) {c : Cluster} (hc : c ∈ s.clusters)
    (ht : 5 ≤ c.row.target.n) (h : Unchecked c.row.name s) (e : Ev) : Unchecked c.row.name (s.ev cfg e) := by
  cases e with
  | crash o k now => intro l hl; cases hl
  | op o =>
    intro l hl
    replace hl : (chkAfter s o).1 = some l := hl
    have new : c.row.name ∉ checkClustersList s := by
      intro hm
      obtain ⟨x, hx, e⟩ := List.mem_map.1 hm
      obtain ⟨hx, hp⟩ := List.mem_filter.1 hx
      rw [cname_inj hi.named.nodup hx hc e] at hp
      have hact : c.row.active = true := (Bool.and_eq_true_iff.1 hp).1
      have : c.row.target.n < 5 := of_decide_eq_true hact
      omega
    cases o with
    | checkClusters =>
      simp only [chkAfter] at hl
      cases hk : s.chkC with
      | none => rw [hk] at hl; simp only [Option.some.injEq] at hl; rw [← hl]; exact new
      | some m => rw [hk] at hl; exact h l (hk.trans hl)
    | checkClustersEnd sts => cases hl
    | checkWorkers => exact h l hl
    | checkWorkersEnd sts => exact h l hl
    | _ => exact h l hl

theorem fold_ends {cfg : Cfg} (evs : List Ev) : ∀ {s : State}, SInv cfg s → ∀ {c d : Cluster}, c ∈ s.clusters →
    d ∈ (evs.foldl (State.ev cfg) s).clusters → d.row.name = c.row.name → ∀ {t : JobStatus}, 5 ≤ t.n →
    Ends c.row.name t c → (t = .failed ∨ (∀ e ∈ evs, e.reportsFailure c.row.name = false) ∧ Unchecked c.row.name s) → Ends c.row.name t d := by
  induction evs with
  | nil =>
    intro s hi c d hc hd hn t ht hE ho
    rw [cname_inj hi.named.nodup hd hc hn]
    exact hE
  | cons e evs ih =>
    intro s hi c d hc hd hn t ht hE ho
    obtain ⟨x, hx, l⟩ := (ev_le hi e).1 c hc
    have hi' := ev_inv hi e
    rcases hx with hx | hx
    · have hEx := ev_ends hi hc hx l.name ht hE (ho.imp id (fun h => ⟨h.1 e (by simp), h.2⟩))
      have := ih hi' hx hd (hn.trans l.name.symm) ht (by rw [l.name]; exact hEx)
        (ho.imp id (fun h => ⟨fun y hy => by rw [l.name]; exact h.1 y (by simp [hy]), by
          rw [l.name]; exact unchecked_ev hi hc (by rw [hE.2.1]; exact ht) h.2 e⟩))
      rwa [l.name] at this
    · obtain ⟨i1, -, i3⟩ := fold_le evs hi'
      exact (i1.named.disjoint d hd x (i3 x hx) (hn.trans l.name.symm)).elim

/-! ### Workers that run -/

/-- The worker runs, or did, and no call to start it is in flight. -/
def Worker.up (w : Worker) : Prop := 3 ≤ w.row.status.n ∧ w.vol.fl ≠ .starting

/-- Worker `x` of cluster `n` does. -/
def Up (n x : Nat) (c : Cluster) : Prop := c.row.name = n ∧ ∃ w ∈ c.workers, w.row.name = x ∧ w.up

/-- The micro-action keeps it so. -/
def Act.keepsUp (n x : Nat) : Act → Prop
  | .updW f => ∀ s, (f n x).status = some s → 3 ≤ s.n
  | .volW m y f => m = n → y = x → ∀ v : WVol, v.fl ≠ .starting → (f v).fl ≠ .starting
  | _ => True

theorem up_act {n x : Nat} {a : Act} (h : a.keepsUp n x) {c : Cluster} (hc : Up n x c) : Up n x (a.onCluster c) := by
  obtain ⟨h1, w, hw, h2, h3, h4⟩ := hc
  cases a with
  | updW f =>
    refine ⟨h1, _, List.mem_map.2 ⟨w, hw, rfl⟩, h2, ?_, h4⟩
    simp only [Act.onWorker, WUpd.app, h1, h2]
    cases e : (f n x).status with
    | none => exact h3
    | some s => exact h s e
  | volW m y f =>
    refine ⟨h1, _, List.mem_map.2 ⟨w, hw, rfl⟩, ?_⟩
    simp only [Act.onWorker]
    split
    · rename_i e
      exact ⟨h2, h3, h (e.1.trans h1) (e.2.trans h2) _ h4⟩
    · exact ⟨h2, h3, h4⟩
  | putW f =>
    refine ⟨h1, _, List.mem_map.2 ⟨w, hw, rfl⟩, ?_⟩
    simp only [Act.onWorker]
    split <;> exact ⟨h2, h3, h4⟩
  | updC f => exact ⟨h1, w, hw, h2, h3, h4⟩
  | newC r => exact ⟨h1, w, hw, h2, h3, h4⟩
  | purge p => exact ⟨h1, w, hw, h2, h3, h4⟩
  | newW n r =>
    simp only [Act.onCluster]
    split
    · exact ⟨h1, w, List.mem_append.2 (Or.inl hw), h2, h3, h4⟩
    · exact ⟨h1, w, hw, h2, h3, h4⟩
  | putC f => simp only [Act.onCluster]; split <;> exact ⟨h1, w, hw, h2, h3, h4⟩
  | volC n f => simp only [Act.onCluster]; split <;> exact ⟨h1, w, hw, h2, h3, h4⟩

/-- All micro-actions of the list do. -/
def KeepsUp (n x : Nat) (l : List Act) : Prop := ∀ a ∈ l, a.keepsUp n x

section
variable {n x : Nat}

theorem KeepsUp.nil : KeepsUp n x [] := fun _ h => nomatch h
theorem KeepsUp.cons {a : Act} {l : List Act} (h : a.keepsUp n x) (h' : KeepsUp n x l) : KeepsUp n x (a :: l) := by
  intro b hb
  rcases List.mem_cons.1 hb with rfl | hb
  · exact h
  · exact h' b hb
theorem KeepsUp.append {l l' : List Act} (h : KeepsUp n x l) (h' : KeepsUp n x l') : KeepsUp n x (l ++ l') := by
  intro b hb
  rcases List.mem_append.1 hb with hb | hb
  · exact h b hb
  · exact h' b hb
theorem KeepsUp.ite {p : Prop} [Decidable p] {l l' : List Act} (h : p → KeepsUp n x l) (h' : ¬ p → KeepsUp n x l') :
    KeepsUp n x (if p then l else l') := by
  split
  · rename_i e; exact h e
  · rename_i e; exact h' e
theorem KeepsUp.on {l : List Act} : ∀ {c : Cluster}, KeepsUp n x l → Up n x c → Up n x (onAll c l) := by
  induction l with
  | nil => exact fun _ h => h
  | cons a l ih => exact fun h hc => ih (fun b hb => h b (by simp [hb])) (up_act (h a (by simp)) hc)

theorem ku_updWs {m : Nat} {ws : List Nat} {u : WUpd} (h : ∀ s, u.status = some s → 3 ≤ s.n) : (updWs m ws u).keepsUp n x := by
  simp only [updWs, Act.keepsUp]
  split
  · exact h
  · simp

theorem ku_updW1 {m y : Nat} {u : WUpd} (h : m = n → y = x → ∀ s, u.status = some s → 3 ≤ s.n) : (updW1 m y u).keepsUp n x := by
  simp only [updW1, Act.keepsUp]
  by_cases e : n = m ∧ x = y
  · rw [if_pos e]; exact h e.1.symm e.2.symm
  · rw [if_neg e]; simp

theorem ku_if {p : Nat → Nat → Prop} [∀ a b, Decidable (p a b)] :
    (Act.updW (fun k y => if p k y then { target := some .failed } else {})).keepsUp n x := by
  simp only [Act.keepsUp]
  split <;> simp

theorem ku_create {m : Nat} {now : Int} : ∀ {k next : Nat}, KeepsUp n x (createWorkers m next now k)
  | 0, _ => .nil
  | k + 1, next => .cons trivial (.cons trivial ku_create)

theorem ku_stopped {c : Cluster} (now : Int) : KeepsUp n x (stoppedActs c now) :=
  .cons (ku_updWs (by simp)) (.cons trivial (.cons trivial .nil))

theorem ku_wstopped {cfg : Cfg} {c : Cluster} {w : WRow} {now : Int} (h : 3 ≤ w.target.n) : KeepsUp n x (workerStoppedActs cfg c w now) :=
  .append (.cons (ku_updW1 (fun _ _ s hs => by simp at hs; subst hs; exact h)) .nil)
    (.ite (fun _ => .cons trivial .nil) (fun _ => .nil))

theorem ku_reconcileC {cfg : Cfg} {next : Nat} {c : Cluster} {now : Int} : KeepsUp n x (reconcileClusterActs cfg next c now) := by
  simp only [reconcileClusterActs]
  refine .ite (fun _ => .nil) (fun _ => .ite (fun _ => .ite (fun _ => .ite (fun _ => .ite (fun _ => ?_)
    (fun _ => ku_stopped now)) (fun _ => .nil)) (fun _ => ?_)) (fun _ => .ite (fun hr => .ite (fun _ => ?_)
    (fun _ => .append (.ite (fun _ => ?_) (fun _ => .nil)) (.ite (fun _ => .append ?_ ?_) (fun _ => .nil)))) (fun _ => .nil)))
  · exact .cons trivial .nil
  · exact .append (.append (.cons (ku_updWs (by simp)) (.cons trivial (.cons trivial .nil)))
      (.ite (fun _ => .cons trivial .nil) (fun _ => .nil))) (.cons trivial .nil)
  · exact .cons trivial .nil
  · exact .cons trivial (.cons trivial .nil)
  · exact .cons trivial .nil
  · exact .ite (fun _ => .cons trivial (.cons trivial .nil)) (fun _ => ku_create)

theorem ku_reconcileW {cfg : Cfg} {c : Cluster} {w : WRow} {now : Int} (ht : 3 ≤ w.target.n)
    (h : c.row.name = n → w.name = x → 3 ≤ w.status.n) : KeepsUp n x (reconcileWorkerActs cfg c w now) := by
  simp only [reconcileWorkerActs]
  refine .ite (fun _ => .nil) (fun _ => .ite (fun _ => .append (.ite (fun _ => .nil)
    (fun _ => .cons (ku_updW1 (fun _ _ s hs => by simp at hs; subst hs; decide)) .nil))
    (.ite (fun _ => .cons trivial .nil) (fun _ => .nil))) (fun _ => .ite (fun _ => .ite (fun _ => .cons (fun _ _ v _ => by simp) (.cons trivial .nil))
    (fun _ => ku_wstopped ht)) (fun _ => .ite (fun e => .cons (fun h1 h2 => ?_) (.cons trivial .nil)) (fun _ => .nil))))
  have := h h1 h2
  rw [e.1] at this
  simp at this

end

theorem acts_up {cfg : Cfg} {s : State} (hi : SInv cfg s) {o : Op} {d : Cluster} (hd : d ∈ s.clusters) {w : Worker}
    (hw : w ∈ d.workers) (hu : w.up) : KeepsUp d.row.name w.row.name (acts cfg s o) := by
  have hn := hi.named
  have same {c : Cluster} {m : Nat} (hc : s.find m = some c) (e : c.row.name = d.row.name) : c = d :=
    cname_inj hn.nodup (sfind_spec hc).1 hd e
  have tg {c : Cluster} {m : Nat} (hc : s.find m = some c) {y : Worker} {z : Nat} (hy : c.find z = some y) : 3 ≤ y.row.target.n :=
    ((hi.inv c (sfind_spec hc).1).1.ws y (find_spec hy).1).tg
  have sameW {c : Cluster} {m : Nat} (hc : s.find m = some c) {y : Worker} {z : Nat} (hy : c.find z = some y)
      (e : c.row.name = d.row.name) (e' : y.row.name = w.row.name) : y = w := by
    have := same hc e
    subst this
    exact name_inj (hi.inv c hd).1.nodup (find_spec hy).1 hw e'
  cases o with
  | startCluster user mx now => exact .cons trivial (.cons trivial .nil)
  | stopCluster m f =>
    simp only [acts]
    split
    · exact .nil
    · exact .ite (fun _ => .cons trivial (.cons trivial .nil)) (fun _ => .nil)
  | heartbeat m msg now =>
    simp only [acts]
    split
    · exact .nil
    · rename_i c hc
      simp only [heartbeatActs]
      refine .ite (fun _ => .nil) (fun h3 => .append (.cons trivial .nil) (.ite (fun _ => .nil)
        (fun _ => .append (.append (.append ?_ (.cons ?_ (.cons trivial .nil))) (.ite (fun _ => .nil)
          (fun _ => .cons trivial (.cons (ku_updWs (by simp)) .nil)))) (.cons (ku_updWs (by simp)) .nil))))
      · split
        · exact .nil
        · exact .cons trivial (.cons trivial .nil)
      · simp only [Act.keepsUp]
        split
        · simp only [hbTarget]
          split
          · simp
          · split <;> simp
        · simp
  | shutdown => exact .cons trivial (.cons trivial .nil)
  | checkTimeouts now =>
    exact .ite (fun _ => .nil) (fun _ => .cons trivial (.cons trivial (.cons ku_if (.cons trivial .nil))))
  | checkClusters => exact .nil
  | checkWorkers => exact .nil
  | checkClustersEnd statuses =>
    simp only [acts]
    split
    · exact .nil
    · exact .cons trivial (.cons trivial .nil)
  | checkWorkersEnd statuses =>
    simp only [acts]
    split
    · exact .nil
    · refine .append (.append (.cons ku_if .nil) (fun a ha => ?_)) (.cons trivial .nil)
      obtain ⟨p, -, rfl⟩ := List.mem_map.1 ha
      trivial
  | cleanup now => exact .cons trivial .nil
  | getC m now =>
    simp only [acts]
    split
    · exact .nil
    · exact .ite (fun _ => .cons trivial ku_reconcileC) (fun _ => .nil)
  | getW m y now =>
    simp only [acts]
    split
    · exact .nil
    · rename_i c hc
      split
      · exact .nil
      · rename_i z hz
        exact .ite (fun _ => .cons (fun _ _ v hv => hv) (ku_reconcileW (tg hc hz) (fun e e' => by
          rw [sameW hc hz e e']; exact hu.1))) (fun _ => .nil)
  | yieldC m st =>
    simp only [acts]
    split
    · exact .nil
    · exact .ite (fun _ => .cons trivial .nil) (fun _ => .nil)
  | yieldW m y st =>
    simp only [acts]
    split
    · exact .nil
    · split
      · exact .nil
      · exact .ite (fun _ => .cons (ku_updW1 (by simp)) .nil) (fun _ => .nil)
  | endStartC m ok =>
    simp only [acts]
    split
    · exact .nil
    · exact .ite (fun _ => .append (.ite (fun _ => .cons trivial .nil) (fun _ => .cons trivial (.cons trivial .nil)))
        (.cons trivial .nil)) (fun _ => .nil)
  | endStopC m now =>
    simp only [acts]
    split
    · exact .nil
    · exact .ite (fun _ => .append (.append (.cons trivial .nil) (ku_stopped now)) (.cons trivial .nil)) (fun _ => .nil)
  | endStartW m y ok =>
    simp only [acts]
    split
    · exact .nil
    · rename_i c hc
      split
      · exact .nil
      · rename_i z hz
        have no (hf : z.vol.fl = .starting) (e : m = d.row.name) (e' : y = w.row.name) : False := by
          have hz' := sameW hc hz ((sfind_spec hc).2.trans e) ((find_spec hz).2.trans e')
          rw [hz'] at hf
          exact hu.2 hf
        exact .ite (fun hf => .append (.ite (fun _ => .cons (ku_updW1 (fun e e' => (no hf e e').elim)) .nil)
          (fun _ => .cons (ku_updW1 (fun e e' => (no hf e e').elim)) (.cons trivial (.cons trivial .nil))))
          (.cons trivial (.cons (fun _ _ v _ => by simp) .nil))) (fun _ => .nil)
  | endStopW m y now =>
    simp only [acts]
    split
    · exact .nil
    · rename_i c hc
      split
      · exact .nil
      · rename_i z hz
        exact .ite (fun _ => .append (ku_wstopped (tg hc hz)) (.cons (fun _ _ v _ => by simp) .nil)) (fun _ => .nil)

theorem ev_up {cfg : Cfg} {s : State} (hi : SInv cfg s) {e : Ev} {c d : Cluster} (hc : c ∈ s.clusters)
    (hd : d ∈ (s.ev cfg e).clusters) (hn : d.row.name = c.row.name) {x : Nat} (hu : Up c.row.name x c) : Up c.row.name x d := by
  obtain ⟨-, w, hw, rfl, hup⟩ := id hu
  obtain ⟨o, k, ⟨rfl, -, h⟩ | ⟨now, y, rfl, rfl, h⟩⟩ := ev_onAll hi hc hd hn
  · rcases h with rfl | rfl
    · exact (acts_up hi hc hw hup).on hu
    · exact hu
  · have : Up c.row.name w.row.name y := by
      rcases h with rfl | rfl
      · exact KeepsUp.on (fun a ha => acts_up hi hc hw hup a (List.mem_of_mem_take ha)) hu
      · exact hu
    obtain ⟨h1, z, hz, h2, h3, h4⟩ := this
    refine ⟨h1, ?_⟩
    rw [reload_workers]
    exact ⟨_, List.mem_map.2 ⟨z, hz, rfl⟩, h2, h3, by simp⟩

theorem fold_up {cfg : Cfg} (evs : List Ev) : ∀ {s : State}, SInv cfg s → ∀ {c d : Cluster}, c ∈ s.clusters →
    d ∈ (evs.foldl (State.ev cfg) s).clusters → d.row.name = c.row.name → ∀ {x : Nat},
    Up c.row.name x c → Up c.row.name x d := by
  induction evs with
  | nil =>
    intro s hi c d hc hd hn x hu
    rw [cname_inj hi.named.nodup hd hc hn]
    exact hu
  | cons e evs ih =>
    intro s hi c d hc hd hn x hu
    obtain ⟨y, hy, l⟩ := (ev_le hi e).1 c hc
    have hi' := ev_inv hi e
    rcases hy with hy | hy
    · have := ev_up hi hc hy l.name hu
      have := ih hi' hy hd (hn.trans l.name.symm) (x := x) (by rw [l.name]; exact this)
      rwa [l.name] at this
    · obtain ⟨i1, -, i3⟩ := fold_le evs hi'
      exact (i1.named.disjoint d hd y (i3 y hy) (hn.trans l.name.symm)).elim

end Verif.Backend
