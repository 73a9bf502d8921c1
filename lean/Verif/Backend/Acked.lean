import Verif.Backend.GiveUp
/-
C174 for the database backends: a request to stop a cluster takes effect, however soon after its creation.
-/
set_option linter.unusedSimpArgs false
set_option linter.unusedVariables false
namespace Verif.Backend

/-- C174 for the database backends. From the moment a cluster was created, whatever happened since, with crashes and
restarts in between: a request to stop it leaves it with a request to stop, or it has ended and was forgotten since. -/
theorem C174_database (cfg : Cfg) (evs evs' : List Ev) (user : String) (mx : Option Nat) (now : Int) (failed : Bool) :
    ∃ d : Cluster, d.row.name = (run cfg evs).next ∧
      ((d ∈ (run cfg (evs ++ .op (.startCluster user mx now) :: evs' ++ [.op (.stopCluster (run cfg evs).next failed)])).clusters ∧
          StopRequested d) ∨
        (d ∈ (run cfg (evs ++ .op (.startCluster user mx now) :: evs' ++ [.op (.stopCluster (run cfg evs).next failed)])).purged ∧
          d.row.status.finished)) := by
  have hs := run_inv cfg evs
  have hx := run_inv cfg (evs ++ .op (.startCluster user mx now) :: evs')
  obtain ⟨c, hc, hn⟩ : ∃ c ∈ (run cfg (evs ++ [.op (.startCluster user mx now)])).clusters,
      c.row.name = (run cfg evs).next := by
    rw [run_append]
    refine ⟨{ newCluster (run cfg evs).next user mx now with
      vol := { (newCluster (run cfg evs).next user mx now).vol with pending := true } }, ?_, rfl⟩
    show _ ∈ (((run cfg evs).apply (.newC (newRow (run cfg evs).next user mx now))).apply (putC1 (run cfg evs).next)).clusters
    rw [(start_state hs.named user mx now).2.1]
    simp
  obtain ⟨d, hd, hm⟩ := (C27_only_finished cfg (evs ++ [.op (.startCluster user mx now)]) evs').1 c hc
  rw [List.append_assoc, List.singleton_append] at hm
  rw [hn] at hd
  rw [run_append cfg (evs ++ .op (.startCluster user mx now) :: evs')]
  generalize run cfg (evs ++ .op (.startCluster user mx now) :: evs') = x at hx hm ⊢
  rcases hm with hm | ⟨hm, hf⟩
  · refine ⟨onAll d (acts cfg x (.stopCluster (run cfg evs).next failed)), by rw [onAll_name]; exact hd, .inl ⟨?_, ?_⟩⟩
    · show _ ∈ (x.step cfg (.stopCluster (run cfg evs).next failed)).clusters
      rw [step_clusters hx rfl]
      exact List.mem_map_of_mem hm
    · have hfind : x.find (run cfg evs).next = some d := hd ▸ sfind_mem hx.named.nodup hm
      simp only [acts, hfind, stopClusterActs]
      show (onAll d _).row.target.finished
      split
      · simp only [onAll_cons, onAll_nil, updC1, putC1, Act.onCluster, CUpd.app]
        cases failed <;> simp [JobStatus.finished]
      · rename_i ht
        rw [onAll_nil, finished_iff]
        have h3 : JobStatus.running.n = 3 := rfl
        have := (hx.inv d hm).1.tgt
        omega
  · exact ⟨d, hd, .inr ⟨(fold_le [_] hx).2.2 d hm, hf⟩⟩

/-- Stopped right after it was created, before the manager got to it: it is stopped, and never started. -/
example : ((run cfgS [.op (.startCluster "alice" none 0), .op (.stopCluster 0 false)]).clusters.map
    (fun c => (c.row.name, c.row.target))) = [(0, .stopped)] := by decide +kernel

end Verif.Backend
