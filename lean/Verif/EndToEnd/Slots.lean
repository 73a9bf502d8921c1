import Verif.EndToEnd.Model
/-
What operations of the backend do to the routes of clusters: exactly what their calls on the routing table say.
-/
set_option linter.unusedSimpArgs false
set_option linter.unusedVariables false
namespace Verif.Backend

/-- The micro-action leaves the routes of all clusters alone. -/
def Act.keepsRoutes : Act → Prop
  | .volC _ f => ∀ v : CVol, (f v).pathRoute = v.pathRoute ∧ (f v).sniRoute = v.sniRoute ∧ (f v).added = v.added
  | _ => True

/-- The routes of a cluster, and whether they were added. -/
def Cluster.slots (c : Cluster) : Option String × Option String × Bool := (c.vol.pathRoute, c.vol.sniRoute, c.vol.added)

theorem slots_act {a : Act} (h : a.keepsRoutes) (c : Cluster) : (a.onCluster c).slots = c.slots := by
  cases a with
  | volC n f =>
    simp only [Act.onCluster]
    split
    · obtain ⟨h1, h2, h3⟩ := h c.vol
      simp only [Cluster.slots, h1, h2, h3]
    · rfl
  | putC f => simp only [Act.onCluster]; split <;> rfl
  | newW n r => simp only [Act.onCluster]; split <;> rfl
  | _ => rfl

/-- All micro-actions of the list do. -/
def KeepsRoutes (l : List Act) : Prop := ∀ a ∈ l, a.keepsRoutes

theorem KeepsRoutes.nil : KeepsRoutes [] := fun _ h => nomatch h
theorem KeepsRoutes.cons {a : Act} {l : List Act} (h : a.keepsRoutes) (h' : KeepsRoutes l) : KeepsRoutes (a :: l) := by
  intro b hb
  rcases List.mem_cons.1 hb with rfl | hb
  · exact h
  · exact h' b hb
theorem KeepsRoutes.append {l l' : List Act} (h : KeepsRoutes l) (h' : KeepsRoutes l') : KeepsRoutes (l ++ l') := by
  intro b hb
  rcases List.mem_append.1 hb with hb | hb
  · exact h b hb
  · exact h' b hb
theorem KeepsRoutes.ite {p : Prop} [Decidable p] {l l' : List Act} (h : p → KeepsRoutes l) (h' : ¬ p → KeepsRoutes l') :
    KeepsRoutes (if p then l else l') := by
  split
  · rename_i e; exact h e
  · rename_i e; exact h' e
theorem KeepsRoutes.on {l : List Act} : ∀ {c : Cluster}, KeepsRoutes l → (onAll c l).slots = c.slots := by
  induction l with
  | nil => exact fun _ => rfl
  | cons a l ih =>
    intro c h
    rw [onAll_cons, ih (fun b hb => h b (by simp [hb])), slots_act (h a (by simp))]

theorem kr_create {m : Nat} {now : Int} : ∀ {k next : Nat}, KeepsRoutes (createWorkers m next now k)
  | 0, _ => .nil
  | k + 1, next => .cons trivial (.cons trivial kr_create)

theorem kr_vol {n : Nat} {f : CVol → CVol}
    (h : ∀ v : CVol, (f v).pathRoute = v.pathRoute ∧ (f v).sniRoute = v.sniRoute ∧ (f v).added = v.added) :
    KeepsRoutes [.volC n f] := .cons h .nil

theorem kr_stopped {c : Cluster} {now : Int} : KeepsRoutes (stoppedActs c now) :=
  .cons trivial (.cons trivial (kr_vol (fun _ => ⟨rfl, rfl, rfl⟩)))

theorem kr_wstopped {cfg : Cfg} {c : Cluster} {w : WRow} {now : Int} : KeepsRoutes (workerStoppedActs cfg c w now) :=
  .append (.cons trivial .nil) (.ite (fun _ => .cons trivial .nil) (fun _ => .nil))

theorem kr_scale {cfg : Cfg} {next : Nat} {c : Cluster} {now : Int} : KeepsRoutes (checkScaleActs cfg next c now) := by
  simp only [checkScaleActs]
  exact .ite (fun _ => .cons trivial (.cons trivial .nil)) (fun _ => kr_create)

theorem kr_running {n : Nat} : KeepsRoutes (toRunningActs n) := .cons trivial (kr_vol (fun _ => ⟨rfl, rfl, rfl⟩))

theorem kr_reconcileW {cfg : Cfg} {c : Cluster} {w : WRow} {now : Int} : KeepsRoutes (reconcileWorkerActs cfg c w now) := by
  simp only [reconcileWorkerActs]
  exact .ite (fun _ => .nil) (fun _ => .ite (fun _ => .append (.ite (fun _ => .nil) (fun _ => .cons trivial .nil))
    (.ite (fun _ => .cons trivial .nil) (fun _ => .nil))) (fun _ => .ite (fun _ => .ite (fun _ =>
      .cons trivial (kr_vol (fun _ => ⟨rfl, rfl, rfl⟩)))
    (fun _ => kr_wstopped)) (fun _ => .ite (fun _ => .cons trivial (kr_vol (fun _ => ⟨rfl, rfl, rfl⟩))) (fun _ => .nil))))

/-- `reconcile_cluster` touches the routes only where `_check_cluster_proxied` is reached. -/
theorem reconcileC_split (cfg : Cfg) (next : Nat) (c : Cluster) (now : Int) :
    (EndToEnd.reachesProxied c = true ∧ ∃ l l', KeepsRoutes l ∧ KeepsRoutes l' ∧
      reconcileClusterActs cfg next c now = l ++ [.volC c.row.name (proxied c.row.sched c.row.dash)] ++ l') ∨
    (EndToEnd.reachesProxied c = false ∧ KeepsRoutes (reconcileClusterActs cfg next c now)) := by
  unfold reconcileClusterActs EndToEnd.reachesProxied
  dsimp only
  by_cases h1 : JobStatus.stopped.n ≤ c.row.status.n
  · rw [if_pos h1]
    right
    refine ⟨?_, .nil⟩
    have : c.row.status ≠ .running ∧ c.row.status ≠ .submitted := by
      constructor <;> (intro e; rw [e] at h1; exact absurd h1 (by decide))
    simp [this.1, this.2]
  rw [if_neg h1]
  by_cases h2 : c.row.target = .stopped ∨ c.row.target = .failed
  · rw [if_pos h2]
    right
    refine ⟨by rcases h2 with e | e <;> simp [e], ?_⟩
    refine .ite (fun _ => .ite (fun _ => .ite (fun _ => kr_vol (fun _ => ⟨rfl, rfl, rfl⟩)) (fun _ => kr_stopped))
      (fun _ => .nil)) (fun _ => ?_)
    unfold toClosingActs
    exact .append (.append (.cons trivial (.cons trivial (.cons trivial .nil)))
      (.ite (fun _ => .cons trivial .nil) (fun _ => .nil))) (kr_vol (fun _ => ⟨rfl, rfl, rfl⟩))
  rw [if_neg h2]
  by_cases h3 : c.row.target = .running
  · rw [if_pos h3]
    by_cases h4 : c.row.status = .created
    · rw [if_pos h4]
      right
      exact ⟨by simp [h4], kr_vol (fun _ => ⟨rfl, rfl, rfl⟩)⟩
    rw [if_neg h4]
    cases hup : (decide (c.row.status = .submitted) && decide (c.row.sched ≠ "")) with
    | true =>
      left
      refine ⟨by simp only [h3, decide_true, Bool.true_and, hup, Bool.or_true], toRunningActs c.row.name, checkScaleActs cfg next c now, kr_running, kr_scale, ?_⟩
      simp
    | false =>
      by_cases h5 : c.row.status = .running
      · left
        refine ⟨by simp [h3, h5], [], checkScaleActs cfg next c now, .nil, kr_scale, ?_⟩
        simp [h5]
      · right
        refine ⟨by simp [h5], ?_⟩
        simp [h5, KeepsRoutes.nil]
  · rw [if_neg h3]
    right
    exact ⟨by simp [h3], .nil⟩

/-- The micro-actions of every operation but two leave the routes alone. -/
theorem acts_routes {cfg : Cfg} {s : State} {o : Op} (h1 : ∀ n now, o ≠ .getC n now) (h2 : ∀ n now, o ≠ .endStopC n now) :
    KeepsRoutes (acts cfg s o) := by
  cases o with
  | startCluster user mx now => exact .cons trivial (.cons trivial .nil)
  | stopCluster m f =>
    simp only [acts]
    split
    · exact .nil
    · exact .ite (fun _ => .cons trivial (.cons trivial .nil)) (fun _ => .nil)
  | heartbeat m msg now =>
    simp only [acts]
    split
    · exact .nil
    · simp only [heartbeatActs]
      refine .ite (fun _ => .nil) (fun h3 => .append (kr_vol (fun _ => ⟨rfl, rfl, rfl⟩)) (.ite (fun _ => .nil)
        (fun _ => .append (.append (.append ?_ (.cons trivial (.cons trivial .nil))) (.ite (fun _ => .nil)
          (fun _ => .cons (fun _ => ⟨rfl, rfl, rfl⟩) (.cons trivial .nil)))) (.cons trivial .nil))))
      split
      · exact .nil
      · exact .cons trivial (.cons trivial .nil)
  | shutdown => exact .cons trivial (.cons trivial .nil)
  | checkTimeouts now =>
    exact .ite (fun _ => .nil) (fun _ => .cons trivial (.cons trivial (.cons trivial (.cons trivial .nil))))
  | checkClusters => exact .nil
  | checkWorkers => exact .nil
  | checkClustersEnd statuses =>
    simp only [acts]
    split
    · exact .nil
    · exact .cons trivial (.cons trivial .nil)
  | checkWorkersEnd statuses =>
    simp only [acts]
    split
    · exact .nil
    · refine .append (.append (.cons trivial .nil) (fun a ha => ?_)) (.cons trivial .nil)
      obtain ⟨p, -, rfl⟩ := List.mem_map.1 ha
      exact fun _ => ⟨rfl, rfl, rfl⟩
  | cleanup now => exact .cons trivial .nil
  | getC m now => exact absurd rfl (h1 m now)
  | getW m w now =>
    simp only [acts]
    split
    · exact .nil
    · split
      · exact .nil
      · exact .ite (fun _ => .cons trivial kr_reconcileW) (fun _ => .nil)
  | yieldC m st =>
    simp only [acts]
    split
    · exact .nil
    · exact .ite (fun _ => .cons trivial .nil) (fun _ => .nil)
  | yieldW m w st =>
    simp only [acts]
    split
    · exact .nil
    · split
      · exact .nil
      · exact .ite (fun _ => .cons trivial .nil) (fun _ => .nil)
  | endStartC m ok =>
    simp only [acts]
    split
    · exact .nil
    · exact .ite (fun _ => .append (.ite (fun _ => .cons trivial .nil) (fun hok => .cons trivial (.cons trivial .nil)))
        (kr_vol (fun _ => ⟨rfl, rfl, rfl⟩))) (fun _ => .nil)
  | endStopC m now => exact absurd rfl (h2 m now)
  | endStartW m w ok =>
    simp only [acts]
    split
    · exact .nil
    · split
      · exact .nil
      · exact .ite (fun _ => .append (.ite (fun _ => .cons trivial .nil)
          (fun _ => .cons trivial (.cons (fun _ => ⟨rfl, rfl, rfl⟩) (.cons trivial .nil))))
          (.cons (fun _ => ⟨rfl, rfl, rfl⟩) (.cons trivial .nil))) (fun _ => .nil)
  | endStopW m w now =>
    simp only [acts]
    split
    · exact .nil
    · split
      · exact .nil
      · exact .ite (fun _ => .append kr_wstopped (.cons trivial .nil)) (fun _ => .nil)

/-! ### The routes of all clusters -/

/-- The routes of the clusters by number: HTTP and TLS. -/
abbrev Routes := Nat → Option String × Option String

/-- Those of a state. -/
def State.routes (s : State) : Routes := fun n =>
  match s.find n with
  | none => (none, none)
  | some c => (c.vol.pathRoute, c.vol.sniRoute)

open Verif.EndToEnd (RouteCall routeCalls proxiedCalls reachesProxied)

/-- What a call means for them. -/
def Routes.call (r : Routes) : RouteCall → Routes
  | .addPath n t => fun m => if m = n then (some t, (r m).2) else r m
  | .addSni n t => fun m => if m = n then ((r m).1, some t) else r m
  | .removePath n => fun m => if m = n then (none, (r m).2) else r m
  | .removeSni n => fun m => if m = n then ((r m).1, none) else r m

theorem sfind_map {s s' : State} {f : Cluster → Cluster} (hf : ∀ c, (f c).row.name = c.row.name)
    (h : s'.clusters = s.clusters.map f) (n : Nat) : s'.find n = (s.find n).map f := by
  unfold State.find
  rw [h, List.find?_map]
  congr 2
  funext c
  simp [hf]

theorem find_none {s : State} {n : Nat} (h : ∀ c ∈ s.clusters, c.row.name ≠ n) : s.find n = none := by
  unfold State.find
  rw [List.find?_eq_none]
  intro c hc
  simp [h c hc]

/-- The routes after a list of micro-actions that create or remove no cluster. -/
theorem routes_plain {s : State} {l : List Act} (h : ∀ a ∈ l, a.plain = true) (n : Nat) :
    (s.applyAll l).routes n = match s.find n with
      | none => (none, none)
      | some c => ((onAll c l).slots.1, (onAll c l).slots.2.1) := by
  unfold State.routes
  rw [sfind_map (s := s) (f := fun c => onAll c l) (fun c => onAll_name c l) (applyAll_plain s l h).1]
  cases s.find n with
  | none => rfl
  | some c => rfl

theorem routes_same {s s' : State} (h : s'.clusters = s.clusters) : s'.routes = s.routes := by
  funext n
  unfold State.routes State.find
  rw [h]

theorem onAll_other {n : Nat} {f : CVol → CVol} {c : Cluster} (h : c.row.name ≠ n) : (Act.volC n f).onCluster c = c := by
  simp only [Act.onCluster]
  rw [if_neg (fun e => h e.symm)]

theorem onAll_this {n : Nat} {f : CVol → CVol} {c : Cluster} (h : c.row.name = n) :
    (Act.volC n f).onCluster c = { c with vol := f c.vol } := by
  simp only [Act.onCluster]
  rw [if_pos h.symm]

/-- A cluster between keeping parts: only the middle counts. -/
theorem slots_mid {l l' : List Act} {a : Act} (h : KeepsRoutes l) (h' : KeepsRoutes l') (c : Cluster) :
    ∃ c', c'.row.name = c.row.name ∧ c'.slots = c.slots ∧ (onAll c (l ++ [a] ++ l')).slots = (a.onCluster c').slots := by
  refine ⟨onAll c l, onAll_name c l, h.on, ?_⟩
  rw [onAll_append, onAll_append, h'.on]
  rfl

/-- One operation changes the routes of clusters as its calls say. -/
theorem step_routes {cfg : Cfg} {s : State} (hi : SInv cfg s) (o : Op) :
    (s.step cfg o).routes = (routeCalls s o).foldl Routes.call s.routes := by
  have e0 : (s.step cfg o).routes = (s.applyAll (acts cfg s o)).routes := routes_same rfl
  rw [e0]
  have quiet (hp : o.plain = true) (hk : KeepsRoutes (acts cfg s o)) :
      (s.applyAll (acts cfg s o)).routes = s.routes := by
    have pl := (prefix_sp hi o (acts cfg s o).length).2 hp
    rw [take_all] at pl
    funext n
    rw [routes_plain pl]
    unfold State.routes
    cases s.find n with
    | none => rfl
    | some c => simp only [hk.on]; rfl
  cases o with
  | startCluster user mx now =>
    obtain ⟨e1, e2, e3, e4⟩ := start_state hi.named user mx now
    funext n
    have e5 : (s.applyAll (acts cfg s (.startCluster user mx now))).clusters = s.clusters ++ _ := e2
    simp only [routeCalls, List.foldl_nil]
    unfold State.routes State.find
    rw [e5, List.find?_append]
    cases hf : s.clusters.find? (fun c => decide (c.row.name = n)) with
    | some c => rfl
    | none =>
      simp only [Option.none_or]
      by_cases e : s.next = n
      · simp [List.find?_cons, newCluster, newRow, e, CVol.init]
      · simp [List.find?_cons, newCluster, newRow, e]
  | cleanup now =>
    funext n
    simp only [routeCalls, List.foldl_nil]
    have sp := (prefix_sp hi (.cleanup now) 1).1
    have e5 : (s.applyAll (acts cfg s (.cleanup now))).clusters = s.clusters.filter _ := rfl
    have et : (acts cfg s (.cleanup now)).take 1 = acts cfg s (.cleanup now) := rfl
    rw [et] at sp
    unfold State.routes
    cases hf : s.find n with
    | none =>
      rw [find_none]
      intro c hc e
      have hc := (List.mem_filter.1 (e5 ▸ hc)).1
      have := sfind_mem hi.named.nodup hc
      rw [e, hf] at this
      cases this
    | some c =>
      obtain ⟨hc, hn⟩ := sfind_spec hf
      by_cases hin : c ∈ (s.applyAll (acts cfg s (.cleanup now))).clusters
      · have := sfind_mem sp.named.nodup hin
        rw [hn] at this
        rw [this]
      · have hp : c ∈ (s.applyAll (acts cfg s (.cleanup now))).purged := by
          refine List.mem_append.2 (Or.inr (List.mem_filter.2 ⟨hc, ?_⟩))
          refine Classical.byContradiction (fun hx => hin (List.mem_filter.2 ⟨hc, ?_⟩))
          simpa using hx
        have hg := sp.gone c hp
        rw [find_none]
        · dsimp only; rw [hg.sni, hg.path]
        · intro d hd e
          exact sp.named.disjoint d hd c hp (e.trans hn.symm)
  | getC m now =>
    simp only [routeCalls]
    have pl := (prefix_sp hi (.getC m now) (acts cfg s (.getC m now)).length).2 rfl
    rw [take_all] at pl
    cases hf : s.find m with
    | none =>
      refine quiet rfl ?_
      simp only [acts, hf]; exact .nil
    | some c =>
      obtain ⟨hc, hn⟩ := sfind_spec hf
      dsimp only
      by_cases hg : c.vol.pending = true ∧ c.vol.fl = .idle
      · rw [if_pos hg]
        have ea : acts cfg s (.getC m now) =
            .volC m (fun v => { v with pending := false }) :: reconcileClusterActs cfg s.next c now := by
          simp only [acts, hf]; rw [if_pos hg]
        have k0 : (Act.volC m (fun v => { v with pending := false })).keepsRoutes := fun _ => ⟨rfl, rfl, rfl⟩
        rcases reconcileC_split cfg s.next c now with ⟨hr, l, l', hl, hl', e⟩ | ⟨hr, hk⟩
        · rw [if_pos hr]
          funext n
          rw [routes_plain pl, ea, e]
          have el : (Act.volC m (fun v => { v with pending := false }) ::
              (l ++ [.volC c.row.name (proxied c.row.sched c.row.dash)] ++ l')) =
              (Act.volC m (fun v => { v with pending := false }) :: l) ++
                [.volC c.row.name (proxied c.row.sched c.row.dash)] ++ l' := rfl
          rw [el]
          by_cases hnm : n = m
          · subst hnm
            simp only [hf]
            obtain ⟨c', h1, h2, h3⟩ := slots_mid (a := .volC c.row.name (proxied c.row.sched c.row.dash))
              (KeepsRoutes.cons k0 hl) hl' c
            rw [h3, onAll_this h1]
            simp only [Cluster.slots, Prod.mk.injEq] at h2 ⊢
            obtain ⟨i1, i2, i3⟩ := h2
            unfold proxied proxiedCalls
            rw [i3]
            cases ha : c.vol.added with
            | true => simp [i1, i2, State.routes, hf]
            | false =>
              by_cases hd : c.row.dash = ""
              · simp [i1, hd, Routes.call, State.routes, hf, hn]
              · simp [hd, Routes.call, State.routes, hf, hn]
          · have er : List.foldl Routes.call s.routes (proxiedCalls c) n = s.routes n := by
              unfold proxiedCalls
              cases c.vol.added <;> by_cases hd : c.row.dash = "" <;> simp [hd, Routes.call, hn, hnm]
            rw [er]
            unfold State.routes
            cases hfn : s.find n with
            | none => rfl
            | some x =>
              dsimp only
              obtain ⟨c', h1, h2, h3⟩ := slots_mid (a := .volC c.row.name (proxied c.row.sched c.row.dash))
                (KeepsRoutes.cons k0 hl) hl' x
              rw [h3, onAll_other (by rw [h1, (sfind_spec hfn).2, hn]; exact hnm), h2]
              rfl
        · rw [if_neg (by rw [hr]; simp)]
          refine quiet rfl ?_
          rw [ea]; exact .cons k0 hk
      · rw [if_neg hg]
        refine quiet rfl ?_
        simp only [acts, hf]; rw [if_neg hg]; exact .nil
  | endStopC m now =>
    simp only [routeCalls]
    have pl := (prefix_sp hi (.endStopC m now) (acts cfg s (.endStopC m now)).length).2 rfl
    rw [take_all] at pl
    cases hf : s.find m with
    | none =>
      refine quiet rfl ?_
      simp only [acts, hf]; exact .nil
    | some c =>
      obtain ⟨hc, hn⟩ := sfind_spec hf
      dsimp only
      by_cases hg : c.vol.fl = .stopping
      · rw [if_pos hg]
        have ea : acts cfg s (.endStopC m now) = [] ++ [.volC c.row.name removeRoutes] ++
            (stoppedActs c now ++ [.volC c.row.name (fun v => { v with fl := .idle })]) := by
          simp only [acts, hf]; rw [if_pos hg]; simp [endStopClusterActs]
        have hl' : KeepsRoutes (stoppedActs c now ++ [.volC c.row.name (fun v => { v with fl := .idle })]) :=
          .append kr_stopped (kr_vol (fun _ => ⟨rfl, rfl, rfl⟩))
        funext n
        rw [routes_plain pl, ea]
        by_cases hnm : n = m
        · subst hnm
          simp only [hf]
          obtain ⟨c', h1, h2, h3⟩ := slots_mid (a := .volC c.row.name removeRoutes) .nil hl' c
          rw [h3, onAll_this h1]
          simp [Cluster.slots, removeRoutes, Routes.call]
        · have er : List.foldl Routes.call s.routes [.removePath m, .removeSni m] n = s.routes n := by
            simp [Routes.call, hnm]
          rw [er]
          unfold State.routes
          cases hfn : s.find n with
          | none => rfl
          | some x =>
            dsimp only
            obtain ⟨c', h1, h2, h3⟩ := slots_mid (a := .volC c.row.name removeRoutes) .nil hl' x
            rw [h3, onAll_other (by rw [h1, (sfind_spec hfn).2, hn]; exact hnm), h2]
            rfl
      · rw [if_neg hg]
        refine quiet rfl ?_
        simp only [acts, hf]; rw [if_neg hg]; exact .nil
  | _ => exact quiet rfl (acts_routes (by simp) (by simp))

/-- After a restart there are no routes. -/
theorem crash_routes {cfg : Cfg} {s : State} (hi : SInv cfg s) (o : Op) (k : Nat) (now : Int) :
    (s.ev cfg (.crash o k now)).routes = fun _ => (none, none) := by
  have sp := (prefix_sp hi o k).1
  funext n
  simp only [State.ev]
  unfold State.routes
  rw [sfind_map (s := s.applyAll ((acts cfg s o).take k)) (f := reload now) (fun c => rfl)
    (restart_clusters sp.synced sp.named now)]
  cases (s.applyAll ((acts cfg s o).take k)).find n with
  | none => rfl
  | some c => rfl

/-! ### Where addresses come from -/

section
variable {G H : Nat → String → Prop}

/-- The micro-action stores only such addresses. -/
def Act.keepsAddr (G H : Nat → String → Prop) : Act → Prop
  | .updC f => ∀ n, (∀ x, (f n).sched = some x → G n x) ∧ (∀ x, (f n).dash = some x → H n x)
  | .newC r => G r.name r.sched ∧ H r.name r.dash
  | _ => True

/-- The addresses of all clusters are such. -/
def AddrOk (G H : Nat → String → Prop) (s : State) : Prop :=
  ∀ c ∈ s.clusters, G c.row.name c.row.sched ∧ H c.row.name c.row.dash

theorem addr_onCluster {a : Act} (h : a.keepsAddr G H) {c : Cluster} (hc : G c.row.name c.row.sched ∧ H c.row.name c.row.dash) :
    G (a.onCluster c).row.name (a.onCluster c).row.sched ∧ H (a.onCluster c).row.name (a.onCluster c).row.dash := by
  cases a with
  | updC f =>
    obtain ⟨h1, h2⟩ := h c.row.name
    simp only [Act.onCluster, CUpd.app]
    constructor
    · cases e : (f c.row.name).sched with
      | none => exact hc.1
      | some x => exact h1 x e
    · cases e : (f c.row.name).dash with
      | none => exact hc.2
      | some x => exact h2 x e
  | volC n f => simp only [Act.onCluster]; split <;> exact hc
  | putC f => simp only [Act.onCluster]; split <;> exact hc
  | newW n r => simp only [Act.onCluster]; split <;> exact hc
  | _ => exact hc

theorem addr_apply {a : Act} (h : a.keepsAddr G H) {s : State} (hs : AddrOk G H s) : AddrOk G H (s.apply a) := by
  have map (f : Cluster → Cluster) (hf : f = a.onCluster) : ∀ c ∈ s.clusters.map f,
      G c.row.name c.row.sched ∧ H c.row.name c.row.dash := by
    subst hf
    intro c hc
    obtain ⟨d, hd, rfl⟩ := List.mem_map.1 hc
    exact addr_onCluster h (hs d hd)
  cases a with
  | newC r =>
    intro c hc
    rcases List.mem_append.1 hc with hc | hc
    · exact hs c hc
    · rw [List.mem_singleton] at hc; subst hc; exact h
  | purge p => exact fun c hc => hs c (List.mem_filter.1 hc).1
  | _ => exact map _ rfl

/-- All micro-actions of the list do. -/
def KeepsAddr (G H : Nat → String → Prop) (l : List Act) : Prop := ∀ a ∈ l, a.keepsAddr G H

theorem addr_applyAll {l : List Act} : ∀ {s : State}, KeepsAddr G H l → AddrOk G H s → AddrOk G H (s.applyAll l) := by
  induction l with
  | nil => exact fun _ h => h
  | cons a l ih => exact fun h hs => ih (fun b hb => h b (by simp [hb])) (addr_apply (h a (by simp)) hs)

theorem KeepsAddr.nil : KeepsAddr G H [] := fun _ h => nomatch h
theorem KeepsAddr.cons {a : Act} {l : List Act} (h : a.keepsAddr G H) (h' : KeepsAddr G H l) : KeepsAddr G H (a :: l) := by
  intro b hb
  rcases List.mem_cons.1 hb with rfl | hb
  · exact h
  · exact h' b hb
theorem KeepsAddr.append {l l' : List Act} (h : KeepsAddr G H l) (h' : KeepsAddr G H l') : KeepsAddr G H (l ++ l') := by
  intro b hb
  rcases List.mem_append.1 hb with hb | hb
  · exact h b hb
  · exact h' b hb
theorem KeepsAddr.ite {p : Prop} [Decidable p] {l l' : List Act} (h : p → KeepsAddr G H l) (h' : ¬ p → KeepsAddr G H l') :
    KeepsAddr G H (if p then l else l') := by
  split
  · rename_i e; exact h e
  · rename_i e; exact h' e

theorem ka_none {f : Nat → CUpd} (h : ∀ n, (f n).sched = none ∧ (f n).dash = none) : (Act.updC f).keepsAddr G H :=
  fun n => ⟨fun x e => (by rw [(h n).1] at e; cases e), fun x e => (by rw [(h n).2] at e; cases e)⟩

theorem ka_updC1 {m : Nat} {u : CUpd} (h1 : u.sched = none) (h2 : u.dash = none) : (updC1 m u).keepsAddr G H := by
  refine ka_none (fun n => ?_)
  by_cases e : n = m
  · simp only [if_pos e]; exact ⟨h1, h2⟩
  · simp [if_neg e]

theorem ka_if {p : Nat → Prop} [DecidablePred p] :
    (Act.updC (fun m => if p m then { target := some .failed } else {})).keepsAddr G H :=
  ka_none (fun n => by by_cases e : p n <;> simp [e])

theorem ka_create {m : Nat} {now : Int} : ∀ {k next : Nat}, KeepsAddr G H (createWorkers m next now k)
  | 0, _ => .nil
  | k + 1, next => .cons trivial (.cons trivial ka_create)

theorem ka_stopped {c : Cluster} {now : Int} : KeepsAddr G H (stoppedActs c now) :=
  .cons trivial (.cons (ka_updC1 rfl rfl) (.cons trivial .nil))

theorem ka_wstopped {cfg : Cfg} {c : Cluster} {w : WRow} {now : Int} : KeepsAddr G H (workerStoppedActs cfg c w now) :=
  .append (.cons trivial .nil) (.ite (fun _ => .cons trivial .nil) (fun _ => .nil))

theorem ka_reconcileC {cfg : Cfg} {next : Nat} {c : Cluster} {now : Int} : KeepsAddr G H (reconcileClusterActs cfg next c now) := by
  simp only [reconcileClusterActs]
  refine .ite (fun _ => .nil) (fun _ => .ite (fun _ => .ite (fun _ => .ite (fun _ => .ite (fun _ => ?_)
    (fun _ => ka_stopped)) (fun _ => .nil)) (fun _ => ?_)) (fun _ => .ite (fun hr => .ite (fun _ => ?_)
    (fun _ => .append (.ite (fun _ => ?_) (fun _ => .nil)) (.ite (fun _ => .append ?_ ?_) (fun _ => .nil)))) (fun _ => .nil)))
  · exact .cons trivial .nil
  · exact .append (.append (.cons trivial (.cons trivial (.cons (ka_updC1 rfl rfl) .nil)))
      (.ite (fun _ => .cons trivial .nil) (fun _ => .nil))) (.cons trivial .nil)
  · exact .cons trivial .nil
  · exact .cons (ka_updC1 rfl rfl) (.cons trivial .nil)
  · exact .cons trivial .nil
  · exact .ite (fun _ => .cons (ka_updC1 rfl rfl) (.cons trivial .nil)) (fun _ => ka_create)

theorem ka_reconcileW {cfg : Cfg} {c : Cluster} {w : WRow} {now : Int} : KeepsAddr G H (reconcileWorkerActs cfg c w now) := by
  simp only [reconcileWorkerActs]
  exact .ite (fun _ => .nil) (fun _ => .ite (fun _ => .append (.ite (fun _ => .nil) (fun _ => .cons trivial .nil))
    (.ite (fun _ => .cons trivial .nil) (fun _ => .nil))) (fun _ => .ite (fun _ => .ite (fun _ => .cons trivial (.cons trivial .nil))
    (fun _ => ka_wstopped)) (fun _ => .ite (fun _ => .cons trivial (.cons trivial .nil)) (fun _ => .nil))))

/-- Addresses are stored only by heartbeats, for the cluster that sent them. -/
theorem acts_addr (cfg : Cfg) (s : State) (o : Op) (h0 : ∀ n, G n "" ∧ H n "")
    (hb : ∀ n m now, o = .heartbeat n m now → G n m.sched ∧ H n m.dash) : KeepsAddr G H (acts cfg s o) := by
  cases o with
  | startCluster user mx now => exact .cons (h0 _) (.cons trivial .nil)
  | stopCluster m f =>
    simp only [acts]
    split
    · exact .nil
    · exact .ite (fun _ => .cons (ka_updC1 rfl rfl) (.cons trivial .nil)) (fun _ => .nil)
  | heartbeat m msg now =>
    simp only [acts]
    split
    · exact .nil
    · rename_i c hc
      simp only [heartbeatActs]
      refine .ite (fun _ => .nil) (fun h3 => .append (.cons trivial .nil) (.ite (fun _ => .nil)
        (fun _ => .append (.append (.append ?_ (.cons trivial (.cons trivial .nil))) (.ite (fun _ => .nil)
          (fun _ => .cons trivial (.cons trivial .nil)))) (.cons trivial .nil))))
      split
      · exact .nil
      · rename_i u hu
        have key : (∀ x, u.sched = some x → x = msg.sched) ∧ (∀ x, u.dash = some x → x = msg.dash) := by
          simp only [hbClusterUpdate] at hu
          repeat' split at hu
          all_goals simp at hu
          all_goals subst hu; exact ⟨fun x e => by simp at e; try exact e.symm, fun x e => by simp at e; try exact e.symm⟩
        refine .cons (fun n => ?_) (.cons trivial .nil)
        obtain ⟨g, h⟩ := hb m msg now rfl
        have hn := (sfind_spec hc).2
        by_cases e : n = c.row.name
        · simp only [if_pos e]
          rw [e, hn]
          exact ⟨fun x ex => by rw [key.1 x ex]; exact g, fun x ex => by rw [key.2 x ex]; exact h⟩
        · simp only [if_neg e]
          exact ⟨fun x ex => (by cases ex), fun x ex => (by cases ex)⟩
  | shutdown => exact .cons ka_if (.cons trivial .nil)
  | checkTimeouts now =>
    exact .ite (fun _ => .nil) (fun _ => .cons ka_if (.cons trivial (.cons trivial (.cons trivial .nil))))
  | checkClusters => exact .nil
  | checkWorkers => exact .nil
  | checkClustersEnd statuses =>
    simp only [acts]
    split
    · exact .nil
    · exact .cons ka_if (.cons trivial .nil)
  | checkWorkersEnd statuses =>
    simp only [acts]
    split
    · exact .nil
    · refine .append (.append (.cons trivial .nil) (fun a ha => ?_)) (.cons trivial .nil)
      obtain ⟨p, -, rfl⟩ := List.mem_map.1 ha
      trivial
  | cleanup now => exact .cons trivial .nil
  | getC m now =>
    simp only [acts]
    split
    · exact .nil
    · exact .ite (fun _ => .cons trivial ka_reconcileC) (fun _ => .nil)
  | getW m w now =>
    simp only [acts]
    split
    · exact .nil
    · split
      · exact .nil
      · exact .ite (fun _ => .cons trivial ka_reconcileW) (fun _ => .nil)
  | yieldC m st =>
    simp only [acts]
    split
    · exact .nil
    · exact .ite (fun _ => .cons (ka_updC1 rfl rfl) .nil) (fun _ => .nil)
  | yieldW m w st =>
    simp only [acts]
    split
    · exact .nil
    · split
      · exact .nil
      · exact .ite (fun _ => .cons trivial .nil) (fun _ => .nil)
  | endStartC m ok =>
    simp only [acts]
    split
    · exact .nil
    · exact .ite (fun _ => .append (.ite (fun _ => .cons (ka_updC1 rfl rfl) .nil)
        (fun hok => .cons (ka_updC1 rfl rfl) (.cons trivial .nil))) (.cons trivial .nil)) (fun _ => .nil)
  | endStopC m now =>
    simp only [acts]
    split
    · exact .nil
    · exact .ite (fun _ => .append (.append (.cons trivial .nil) ka_stopped) (.cons trivial .nil)) (fun _ => .nil)
  | endStartW m w ok =>
    simp only [acts]
    split
    · exact .nil
    · split
      · exact .nil
      · exact .ite (fun _ => .append (.ite (fun _ => .cons trivial .nil)
          (fun _ => .cons trivial (.cons trivial (.cons trivial .nil))))
          (.cons trivial (.cons trivial .nil))) (fun _ => .nil)
  | endStopW m w now =>
    simp only [acts]
    split
    · exact .nil
    · split
      · exact .nil
      · exact .ite (fun _ => .append ka_wstopped (.cons trivial .nil)) (fun _ => .nil)

/-- The operation of an event. -/
def Ev.opOf : Ev → Op
  | .op o => o
  | .crash o _ _ => o

theorem ev_addr {cfg : Cfg} {s : State} (hi : SInv cfg s) (e : Ev) (h0 : ∀ n, G n "" ∧ H n "")
    (hb : ∀ n m now, e.opOf = .heartbeat n m now → G n m.sched ∧ H n m.dash) (hs : AddrOk G H s) :
    AddrOk G H (s.ev cfg e) := by
  cases e with
  | op o => exact addr_applyAll (acts_addr cfg s o h0 hb) hs
  | crash o k now =>
    have h := addr_applyAll (l := (acts cfg s o).take k) (s := s)
      (fun a ha => acts_addr cfg s o h0 hb a (List.mem_of_mem_take ha)) hs
    have sp := (prefix_sp hi o k).1
    intro c hc
    simp only [State.ev] at hc
    rw [restart_clusters sp.synced sp.named now] at hc
    obtain ⟨x, hx, rfl⟩ := List.mem_map.1 hc
    exact h x hx

end

end Verif.Backend
