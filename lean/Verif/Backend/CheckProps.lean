import Verif.Backend.ReasonProps
import Verif.Backend.Failures
/-! Property C167: status checks ask about everything that is being started, and act on the answers. -/
set_option linter.unusedSimpArgs false
set_option linter.unusedVariables false
namespace Verif.Backend

/-! ### Specification -/

/-- Whether the gateway waits for the answer about clusters, after one more event. -/
def waitC (b : Bool) : Ev → Bool
  | .op .checkClusters => true
  | .op (.checkClustersEnd _) => false
  | .crash _ _ _ => false
  | _ => b

/-- The same for workers. -/
def waitW (b : Bool) : Ev → Bool
  | .op .checkWorkers => true
  | .op (.checkWorkersEnd _) => false
  | .crash _ _ _ => false
  | _ => b

/-- The event ends no wait for an answer about clusters: it is neither the answer nor a crash. -/
def Ev.leavesC : Ev → Bool
  | .op (.checkClustersEnd _) => false
  | .crash _ _ _ => false
  | _ => true

/-- The same for workers. -/
def Ev.leavesW : Ev → Bool
  | .op (.checkWorkersEnd _) => false
  | .crash _ _ _ => false
  | _ => true

/-- The answer to a question about these objects says of one of them that it does not run. -/
def Dead {β : Type} (asked : List β) (answer : List Bool) (x : β) : Prop :=
  ∃ i : Nat, asked[i]? = some x ∧ answer[i]? = some false

open Classical in
/-- What the answer about clusters must leave of a cluster: the dead are to fail, and are queued. -/
noncomputable def answeredC (asked : List Nat) (answer : List Bool) (c : Cluster) : Cluster :=
  if Dead asked answer c.row.name then
    { c with row := { c.row with target := .failed }, vol := { c.vol with pending := true } }
  else c

open Classical in
/-- What the answer about workers must leave of a worker. -/
noncomputable def answeredW (asked : List (Nat × Nat)) (answer : List Bool) (n : Nat) (w : Worker) : Worker :=
  if Dead asked answer (n, w.row.name) then
    { row := { w.row with target := .failed }, vol := { w.vol with pending := true } }
  else w

/-! ### Proofs -/

theorem waits_c (cfg : Cfg) (evs : List Ev) : (run cfg evs).chkC.isSome = evs.foldl waitC false := by
  have : ∀ (evs : List Ev) (s : State) (b : Bool), s.chkC.isSome = b →
      (evs.foldl (State.ev cfg) s).chkC.isSome = evs.foldl waitC b := by
    intro evs
    induction evs with
    | nil => exact fun s b h => h
    | cons e evs ih =>
      intro s b h
      refine ih _ _ ?_
      cases e with
      | crash o k now => rfl
      | op o =>
        change (chkAfter s o).1.isSome = _
        cases o with
        | checkClusters => simp only [chkAfter, waitC]; cases s.chkC <;> rfl
        | checkClustersEnd st => rfl
        | _ => exact h
  exact this evs _ _ rfl

theorem waits_w (cfg : Cfg) (evs : List Ev) : (run cfg evs).chkW.isSome = evs.foldl waitW false := by
  have : ∀ (evs : List Ev) (s : State) (b : Bool), s.chkW.isSome = b →
      (evs.foldl (State.ev cfg) s).chkW.isSome = evs.foldl waitW b := by
    intro evs
    induction evs with
    | nil => exact fun s b h => h
    | cons e evs ih =>
      intro s b h
      refine ih _ _ ?_
      cases e with
      | crash o k now => rfl
      | op o =>
        change (chkAfter s o).2.isSome = _
        cases o with
        | checkWorkers => simp only [chkAfter, waitW]; cases s.chkW <;> rfl
        | checkWorkersEnd st => rfl
        | _ => exact h
  exact this evs _ _ rfl

theorem run_snoc (cfg : Cfg) (evs : List Ev) (e : Ev) : run cfg (evs ++ [e]) = (run cfg evs).ev cfg e := by
  simp [run]

theorem bad_iff {β : Type} (l : List β) (st : List Bool) (x : β) : x ∈ bad l st ↔ Dead l st x := by
  unfold bad Dead
  rw [List.mem_map]
  constructor
  · rintro ⟨p, hp, rfl⟩
    obtain ⟨hm, hb⟩ := List.mem_filter.1 hp
    obtain ⟨i, hi⟩ := List.mem_iff_getElem?.1 hm
    rw [List.getElem?_zip_eq_some] at hi
    refine ⟨i, hi.1, ?_⟩
    rw [hi.2]
    cases h : p.2
    · rfl
    · rw [h] at hb; cases hb
  · rintro ⟨i, h1, h2⟩
    refine ⟨(x, false), List.mem_filter.2 ⟨List.mem_iff_getElem?.2 ⟨i, ?_⟩, rfl⟩, rfl⟩
    rw [List.getElem?_zip_eq_some]
    exact ⟨h1, h2⟩

theorem map_sublist_filter {l : List Cluster} (p : Cluster → Bool) (h : (l.map (fun c => c.row.name)).Nodup) :
    ((l.filter p).map (fun c => c.row.name)).Nodup :=
  h.sublist (List.filter_sublist.map _)

/-! ### Theorems -/

/-- C167: whenever no answer is awaited, a status check asks about exactly the clusters whose schedulers were submitted
and do not run yet, and that are not to stop, about each once. -/
theorem C167_asked (cfg : Cfg) (evs : List Ev) (h : evs.foldl waitC false = false) :
    ∃ l, (run cfg (evs ++ [.op .checkClusters])).chkC = some l ∧ l.Nodup ∧
      ∀ n, n ∈ l ↔ ∃ c ∈ (run cfg evs).clusters, c.row.name = n ∧ ¬ StopRequested c ∧ c.row.status = .submitted := by
  rw [← waits_c cfg] at h
  have hn : (run cfg evs).chkC = none := by
    cases e : (run cfg evs).chkC with
    | none => rfl
    | some l => rw [e] at h; cases h
  refine ⟨checkClustersList (run cfg evs), ?_, map_sublist_filter _ (run_inv cfg evs).named.nodup, fun n => ?_⟩
  · rw [run_snoc]
    change (chkAfter _ _).1 = _
    simp only [chkAfter, hn]
  · unfold checkClustersList
    rw [List.mem_map]
    constructor
    · rintro ⟨c, hc, rfl⟩
      obtain ⟨hc, hp⟩ := List.mem_filter.1 hc
      rw [Bool.and_eq_true] at hp
      refine ⟨c, hc, rfl, ?_, of_decide_eq_true hp.2⟩
      have : c.row.target.n < 5 := of_decide_eq_true hp.1
      rw [StopRequested, finished_iff]
      omega
    · rintro ⟨c, hc, rfl, h1, h2⟩
      rw [StopRequested, finished_iff] at h1
      refine ⟨c, List.mem_filter.2 ⟨hc, ?_⟩, rfl⟩
      rw [Bool.and_eq_true]
      exact ⟨decide_eq_true (show c.row.target.n < 5 by omega), decide_eq_true h2⟩

/-- C167: the same for workers: a check asks about the submitted workers that are not to stop, of the clusters that run
and are not to stop. -/
theorem C167_asked_workers (cfg : Cfg) (evs : List Ev) (h : evs.foldl waitW false = false) :
    ∃ l, (run cfg (evs ++ [.op .checkWorkers])).chkW = some l ∧
      ∀ p : Nat × Nat, p ∈ l ↔ ∃ c ∈ (run cfg evs).clusters, c.row.name = p.1 ∧ ¬ StopRequested c ∧ c.row.status = .running ∧
        ∃ w ∈ c.workers, w.row.name = p.2 ∧ w.row.status = .submitted ∧ ¬ w.row.target.finished := by
  rw [← waits_w cfg] at h
  have hn : (run cfg evs).chkW = none := by
    cases e : (run cfg evs).chkW with
    | none => rfl
    | some l => rw [e] at h; cases h
  refine ⟨checkWorkersList (run cfg evs), ?_, fun p => ?_⟩
  · rw [run_snoc]
    change (chkAfter _ _).2 = _
    simp only [chkAfter, hn]
  · unfold checkWorkersList Cluster.activeWorkers
    simp only [List.mem_flatMap, List.mem_filter, List.mem_map, Bool.and_eq_true, decide_eq_true_eq, CRow.active, WRow.active,
      StopRequested, finished_iff, stopped_n]
    constructor
    · rintro ⟨c, ⟨hc, h1, h2⟩, w, ⟨⟨hw, h3⟩, h4⟩, rfl⟩
      have h1' : c.row.target.n < 5 := of_decide_eq_true h1
      have h3' : w.row.target.n < 5 := of_decide_eq_true h3
      exact ⟨c, hc, rfl, by omega, h2, w, hw, rfl, h4, by omega⟩
    · rintro ⟨c, hc, h0, h1, h2, w, hw, h3, h4, h5⟩
      exact ⟨c, ⟨hc, decide_eq_true (show c.row.target.n < 5 by omega), h2⟩, w, ⟨⟨hw, decide_eq_true (show w.row.target.n < 5 by omega)⟩, h4⟩, by rw [h0, h3]⟩

/-- C167: the answer, whatever happened in the meantime, is taken for the one to the question that was asked. -/
theorem C167_kept (cfg : Cfg) (evs evs' : List Ev) (l : List Nat) (h : (run cfg evs).chkC = some l)
    (he : ∀ e ∈ evs', e.leavesC = true) : (run cfg (evs ++ evs')).chkC = some l := by
  rw [run_append]
  generalize run cfg evs = s at h
  induction evs' generalizing s with
  | nil => exact h
  | cons e evs' ih =>
    refine ih (fun x hx => he x (List.mem_cons_of_mem _ hx)) _ ?_
    have := he e List.mem_cons_self
    cases e with
    | crash o k now => cases this
    | op o =>
      change (chkAfter s o).1 = some l
      cases o with
      | checkClusters => simp only [chkAfter, h]
      | checkClustersEnd st => cases this
      | _ => exact h

/-- The same for workers. -/
theorem C167_kept_workers (cfg : Cfg) (evs evs' : List Ev) (l : List (Nat × Nat)) (h : (run cfg evs).chkW = some l)
    (he : ∀ e ∈ evs', e.leavesW = true) : (run cfg (evs ++ evs')).chkW = some l := by
  rw [run_append]
  generalize run cfg evs = s at h
  induction evs' generalizing s with
  | nil => exact h
  | cons e evs' ih =>
    refine ih (fun x hx => he x (List.mem_cons_of_mem _ hx)) _ ?_
    have := he e List.mem_cons_self
    cases e with
    | crash o k now => cases this
    | op o =>
      change (chkAfter s o).2 = some l
      cases o with
      | checkWorkers => simp only [chkAfter, h]
      | checkWorkersEnd st => cases this
      | _ => exact h

/-- C167: an answer has the effect it must have on every cluster, and no other: the dead are to fail and are queued, the
rest is as before. -/
theorem C167_answer (cfg : Cfg) (evs : List Ev) (l : List Nat) (st : List Bool) (h : (run cfg evs).chkC = some l) :
    (run cfg (evs ++ [.op (.checkClustersEnd st)])).clusters = (run cfg evs).clusters.map (answeredC l st) := by
  rw [run_snoc]
  change ((run cfg evs).step cfg (.checkClustersEnd st)).clusters = _
  rw [step_clusters (run_inv cfg evs) (o := .checkClustersEnd st) rfl]
  refine List.map_congr_left (fun c hc => ?_)
  simp only [acts, h, checkClustersActs, onAll_cons, onAll_nil]
  unfold answeredC
  by_cases hd : Dead l st c.row.name
  · have hb := (bad_iff l st _).2 hd
    rw [if_pos hd]
    simp [Act.onCluster, CUpd.app, hb]
  · have hb : ¬ c.row.name ∈ bad l st := fun hb => hd ((bad_iff l st _).1 hb)
    rw [if_neg hd]
    simp [Act.onCluster, CUpd.app, hb]

/-- C167: the same for the workers of every cluster; nothing else in the row of the cluster changes. -/
theorem C167_answer_workers (cfg : Cfg) (evs : List Ev) (l : List (Nat × Nat)) (st : List Bool)
    (h : (run cfg evs).chkW = some l) :
    (run cfg (evs ++ [.op (.checkWorkersEnd st)])).clusters.map (fun c => (c.row, c.workers)) =
      (run cfg evs).clusters.map (fun c => (c.row, c.workers.map (answeredW l st c.row.name))) := by
  rw [run_snoc]
  change ((run cfg evs).step cfg (.checkWorkersEnd st)).clusters.map _ = _
  rw [step_clusters (run_inv cfg evs) (o := .checkWorkersEnd st) rfl, List.map_map]
  refine List.map_congr_left (fun c hc => ?_)
  simp only [acts, h, checkWorkersActs, Function.comp_apply]
  rw [onAll_append, onAll_append, onAll_cons, onAll_nil, onAll_cons, onAll_nil]
  obtain ⟨k, e⟩ := onAll_fails (c := (Act.updW (fun k x => if (k, x) ∈ bad l st then ({ target := some .failed } : WUpd) else {})).onCluster c) (bad l st)
  rw [e]
  simp only [Act.onCluster, List.map_map, Prod.mk.injEq, true_and]
  refine List.map_congr_left (fun w hw => ?_)
  unfold answeredW
  by_cases hd : Dead l st (c.row.name, w.row.name)
  · have hb := (bad_iff l st _).2 hd
    rw [if_pos hd]
    simp [Act.onWorker, WUpd.app, hb]
  · have hb : ¬ (c.row.name, w.row.name) ∈ bad l st := fun hb => hd ((bad_iff l st _).1 hb)
    rw [if_neg hd]
    simp [Act.onWorker, WUpd.app, hb]

/-- C167, put together: a check is begun while a scheduler is being started; whatever happens while it is under way, if
its answer says that the scheduler does not run, then the cluster, unless it has ended by then, is seen stopping and then
failed, whatever happens later. -/
theorem C167_dead (cfg : Cfg) (evs evs' evs'' : List Ev) (st : List Bool) {c d x : Cluster} (hw : evs.foldl waitC false = false)
    (hc : c ∈ (run cfg evs).clusters) (h1 : ¬ StopRequested c) (h2 : c.row.status = .submitted)
    (he : ∀ e ∈ evs', e.leavesC = true)
    (hs : ∀ l, (run cfg (evs ++ [.op .checkClusters])).chkC = some l → Dead l st c.row.name)
    (hd : d ∈ (run cfg (evs ++ [.op .checkClusters] ++ evs')).clusters) (hn : d.row.name = c.row.name)
    (hu : ¬ d.row.status.finished)
    (hx : x ∈ (run cfg (evs ++ [.op .checkClusters] ++ evs' ++ [.op (.checkClustersEnd st)] ++ evs'')).clusters)
    (hxn : x.row.name = c.row.name) : x.modelStatus = some .stopping ∨ x.modelStatus = some .failed := by
  obtain ⟨l, hl, -, -⟩ := C167_asked cfg evs hw
  have hk := C167_kept cfg _ evs' l hl he
  have ha := C167_answer cfg _ l st hk
  have hm : answeredC l st d ∈ (run cfg (evs ++ [.op .checkClusters] ++ evs' ++ [.op (.checkClustersEnd st)])).clusters := by
    rw [ha]
    exact List.mem_map.2 ⟨d, hd, rfl⟩
  have hdead : Dead l st d.row.name := by rw [hn]; exact hs l hl
  have e : answeredC l st d = { d with row := { d.row with target := .failed }, vol := { d.vol with pending := true } } := by
    unfold answeredC
    rw [if_pos hdead]
  rw [e] at hm
  exact C97_failed_stays hm rfl hu hx (hxn.trans hn.symm)

/-- Two clusters, of which one is found dead; a third, created meanwhile, is not touched. -/
def twoChecked : List Ev :=
  [.op (.startCluster "ann" none 0), .op (.startCluster "bob" none 0), .op (.getC 0 0), .op (.endStartC 0 true), .op (.getC 1 0),
   .op (.endStartC 1 true)]

example : twoChecked.foldl waitC false = false ∧ (run cfgB (twoChecked ++ [.op .checkClusters])).chkC = some [0, 1] ∧
    (run cfgB (twoChecked ++ [.op .checkClusters, .op (.startCluster "cid" none 0), .op (.checkClustersEnd [true, false])])).clusters.map
      (fun c => c.row.target) = [.running, .failed, .running] := by
  decide +kernel

end Verif.Backend
