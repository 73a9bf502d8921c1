import Verif.Kube.ViewProps
import Verif.Api.Props
/-! C89 and C91 as users meet them: list requests over HTTP, the end of heartbeats, and which clusters can still be stopped. -/
namespace Verif.Kube

/-- C89: a list request over HTTP that names no statuses is answered, on Kubernetes, with exactly those clusters of the caller that
are pending or running. -/
theorem C89_http (upper : Str → Str) (utf8 : List Nat → Option Str) (ops : List VOp) (env : Api.Env) (req : Api.Request) (u : Auth.User)
    (hr : req.route = .list none) (hu : Api.LoggedInAs req u) :
    ∃ l, (Api.handle env (KubeView.run upper utf8 ops).known req).code = 200 ∧
      (Api.handle env (KubeView.run upper utf8 ops).known req).body = .clusters l ∧
      ∀ v, v ∈ l ↔ ∃ r, (KubeView.run upper utf8 ops).get r.name = some r ∧ r.username = u.name ∧
        (r.status = .pending ∨ r.status = .running) ∧ v = r.toApi.toDict := by
  obtain ⟨l, h1, h2, h3⟩ := Api.C34_list_default env (KubeView.run upper utf8 ops).known req u hr hu
  refine ⟨l, h1, h2, fun v => ?_⟩
  rw [h3 v]
  have hall := C89_all upper utf8 ops (some [.pending, .running, .stopping, .stopped, .failed])
  have hmem : ∀ r, r ∈ (KubeView.run upper utf8 ops).clusters.map (·.2) ↔
      (KubeView.run upper utf8 ops).get r.name = some r := by
    intro r
    have h := hall r
    unfold KubeView.list at h
    dsimp only at h
    rw [List.mem_filter] at h
    constructor
    · intro hx
      exact (h.mp ⟨hx, by unfold selected; cases r.status <;> rfl⟩).1
    · intro hx
      exact (h.mpr ⟨hx, by unfold Asked; dsimp only; cases r.status <;> simp⟩).1
  have hact : ∀ r : Rec, r.toApi.active = true ↔ (r.status = .pending ∨ r.status = .running) := by
    intro r
    unfold Rec.toApi
    dsimp only
    cases r.status <;> decide
  constructor
  · rintro ⟨c, hc, hn, ha, rfl⟩
    unfold KubeView.known at hc
    obtain ⟨e, he, rfl⟩ := List.mem_map.mp hc
    exact ⟨e.2, (hmem e.2).mp (List.mem_map.mpr ⟨e, he, rfl⟩), hn, (hact e.2).mp ha, rfl⟩
  · rintro ⟨r, hg, hn, ha, rfl⟩
    obtain ⟨e, he, rfl⟩ := List.mem_map.mp ((hmem r).mpr hg)
    exact ⟨e.2.toApi, List.mem_map.mpr ⟨e, he, rfl⟩, hn, (hact e.2).mpr ha, rfl⟩

/-- C91: a cluster that is known and neither stopped nor failed can be stopped, also while it is stopping. -/
theorem C91_stoppable (v : KubeView) (ns name : Str) (h1 : '.' ∉ ns) (h2 : '.' ∉ name) (r : Rec)
    (h : v.get (ns ++ '.' :: name) = some r) (hs : r.status ≠ .stopped) (hf : r.status ≠ .failed) :
    v.stop (ns ++ '.' :: name) = some (some (.active ns name false)) := by
  unfold KubeView.stop
  rw [h, splitName_full h1 h2]
  dsimp only
  rw [if_neg]
  · rfl
  · intro hx
    cases hst : r.status with
    | stopped => exact hs hst
    | failed => exact hf hst
    | pending => rw [hst] at hx; exact absurd hx (by decide)
    | running => rw [hst] at hx; exact absurd hx (by decide)
    | stopping => rw [hst] at hx; exact absurd hx (by decide)

/-- C91: a heartbeat of a cluster whose object is gone is not an error, nor is one that the API server accepts; any other refusal is. -/
theorem C91_answer (code : Nat) : patchAnswer code = false ↔ 300 ≤ code ∧ code ≠ 404 := by
  unfold patchAnswer
  rw [decide_eq_false_iff_not]
  omega

example : patchAnswer 200 = true ∧ patchAnswer 404 = true ∧ patchAnswer 403 = false ∧ patchAnswer 500 = false := by decide

end Verif.Kube
