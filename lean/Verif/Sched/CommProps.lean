import Verif.Sched.Comm
/-! Property C76: who may scale a cluster through its scheduler. -/
set_option linter.unusedSimpArgs false
set_option linter.unusedVariables false
namespace Verif.Sched
open Verif.Auth

private theorem currentUser_true {token : Str} {auth : Option Str} :
    currentUser token auth = .ok true ↔ auth = some ("token ".toList ++ token) := by
  constructor
  · intro h
    unfold currentUser at h
    split at h
    · cases h
    · cases h
    · split at h
      · cases h
      · rename_i hs
        simp only [Except.ok.injEq, decide_eq_true_eq] at h
        rw [h.1, h.2] at hs
        rw [(split1_eq_some hs).1]
        rfl
  · rintro rfl
    have : split1 ' ' ("token".toList ++ ' ' :: token) = some ("token".toList, token) :=
      split1_append ' ' _ _ (by decide)
    change (match split1 ' ' ("token".toList ++ ' ' :: token) with
      | none => Except.error 500
      | some (t, v) => .ok (decide (t = "token".toList ∧ v = token))) = _
    rw [this]
    simp

/-- C76: a request has an effect only if it carries exactly the token of the cluster. -/
theorem C76_only_token (token : Str) (r : CommReq) (e : Effect) (h : (comm token r).2 = some e) :
    r.auth = some ("token ".toList ++ token) := by
  unfold comm at h
  split at h
  · cases h
  · split at h
    · cases h
    · cases h
    · rename_i hu
      exact currentUser_true.1 hu

/-- C76: a request without it is refused with an error. -/
theorem C76_refused (token : Str) (r : CommReq) (h : r.auth ≠ some ("token ".toList ++ token)) :
    (comm token r).2 = none ∧ ((comm token r).1 = 403 ∨ (comm token r).1 = 500) := by
  unfold comm
  split
  · exact ⟨rfl, Or.inr rfl⟩
  · split
    · rename_i e he
      refine ⟨rfl, Or.inr ?_⟩
      unfold currentUser at he
      split at he
      · cases he
      · cases he
      · split at he
        · exact (Except.error.inj he).symm
        · cases he
    · exact ⟨rfl, Or.inl rfl⟩
    · rename_i hu
      exact absurd (currentUser_true.1 hu) h

/-- C76: a scale request of the gateway is passed on with its count. -/
theorem C76_scale (token : Str) (m : List (Str × Json)) (count : Json)
    (ho : lookup m "op".toList = some (.str "scale".toList)) (hc : lookup m "count".toList = some count) :
    comm token { auth := some ("token ".toList ++ token), isJson := true, body := some (.obj m) } =
      (200, some (.scale count)) := by
  unfold comm
  rw [if_neg (by simp), currentUser_true.2 rfl]
  change dispatch (.obj m) = _
  unfold dispatch
  dsimp only
  rw [if_pos ho, hc]
  rfl

/-- C76: so is one to scale adaptively, with its bounds. -/
theorem C76_adapt (token : Str) (m : List (Str × Json))
    (ho : lookup m "op".toList = some (.str "adapt".toList)) :
    comm token { auth := some ("token ".toList ++ token), isJson := true, body := some (.obj m) } =
      (200, some (.adapt (lookup m "minimum".toList) (lookup m "maximum".toList)
        (lookup m "active".toList))) := by
  unfold comm
  rw [if_neg (by simp), currentUser_true.2 rfl]
  change dispatch (.obj m) = _
  unfold dispatch
  dsimp only
  rw [if_neg (by rw [ho]; decide), if_pos ho]

/-- C76: any other operation is refused, even from the gateway. -/
theorem C76_other (token : Str) (r : CommReq) (m : List (Str × Json)) (hb : r.body = some (.obj m))
    (h1 : lookup m "op".toList ≠ some (.str "scale".toList))
    (h2 : lookup m "op".toList ≠ some (.str "adapt".toList)) : (comm token r).2 = none := by
  unfold comm
  split
  · rfl
  · split
    · rfl
    · rfl
    · rw [hb]
      split
      · rename_i e
        cases e
        unfold dispatch
        dsimp only
        rw [if_neg h1, if_neg h2]
      · rfl

/-- A request with the token, one with a longer token and one without a scheme. -/
example :
    let body := some (Json.obj [("op".toList, .str "scale".toList), ("count".toList, .num (.int 3))])
    comm "abc".toList ⟨some "token abc".toList, true, body⟩ = (200, some (.scale (.num (.int 3)))) ∧
    comm "abc".toList ⟨some "token abcd".toList, true, body⟩ = (403, none) ∧
    comm "abc".toList ⟨some "abc".toList, true, body⟩ = (500, none) ∧
    comm "abc".toList ⟨none, true, body⟩ = (403, none) := by decide +kernel

end Verif.Sched
