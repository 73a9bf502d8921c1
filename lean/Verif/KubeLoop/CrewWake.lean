import Verif.KubeLoop.Crew
/-! C132: the controller notices at once that a worker failed. -/
namespace Verif.KubeLoop
open Verif.Kube

/-- C132: when a worker that was not known as failed is shown to have failed, the cluster is looked at again, whatever the controller
still waits for. -/
theorem C132_failure_noticed (s : Crew) (pod : Str) (now : Rat) (hn : pod ∈ s.news) (hp : pod ∈ s.pods)
    (hs : s.state pod = some .failed) (hf : pod ∉ s.info.sets .failed) : (s.showPod pod now).queued = true := by
  unfold Crew.showPod
  rw [if_pos hn, if_pos hp, hs]
  dsimp only
  unfold Crew.note Info.update
  dsimp only
  rw [decide_eq_true hf, decide_eq_true rfl]
  simp

/-- C132: the start of a worker wakes the controller only if it waits for nothing else, or has waited too long. -/
theorem C132_start_quiet (s : Crew) (pod : Str) (now : Rat) (hn : pod ∈ s.news) (hp : pod ∈ s.pods)
    (hs : s.state pod = some .running) (hq : s.queued = false)
    (ht : (s.info.update .running pod).1.shouldTrigger now = false) : (s.showPod pod now).queued = false := by
  unfold Crew.showPod
  rw [if_pos hn, if_pos hp, hs]
  dsimp only
  unfold Crew.note
  dsimp only
  rw [hq, ht]
  simp

/-- A controller that waits for two more pods, one of which exists already and has failed. -/
def waitingEx : Crew :=
  { Crew.init 0 with
    info := (Info.init 0).expect 2 0 0, pods := ["w".toList], news := ["w".toList], state := fun _ => some .failed, queued := false }

example : ("w".toList ∈ waitingEx.news ∧ "w".toList ∈ waitingEx.pods ∧ waitingEx.state "w".toList = some .failed ∧
    "w".toList ∉ waitingEx.info.sets .failed) ∧ (waitingEx.info.update .failed "w".toList).1.shouldTrigger 1 = false := by
  decide +kernel

end Verif.KubeLoop
