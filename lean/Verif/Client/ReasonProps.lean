import Verif.Client.Reason
/-! C194: the message of an error reaches the user whose request was refused. -/
namespace Verif.Client

/-- Specification: the exception that the documentation of the client promises, with the message for people. -/
def Promised : Fault → Exn → Prop
  | .badStatus m, e => e = .value (.str m)
  | .refused m, e => e = .value (.str m)
  | .notFound n, e => e = .value (.str ("Cluster ".toList ++ n ++ " not found".toList))
  | .forbidden u n, e =>
    ∃ k : Json → Exn, (k = .value ∨ k = .cluster ∨ k = .server) ∧
      e = k (.str ("User ".toList ++ u ++ " lacks permissions to view cluster ".toList ++ n))
  | .badCount c, e => e = .value (.str ("Scale expects a non-negative integer, got ".toList ++ c))
  | .conflict m, e => e = .cluster (.str m)

/-- The words that the gateway quotes in its message are on one line. -/
def OneLine : Fault → Prop
  | .badStatus m => '\n' ∉ m
  | .refused m => '\n' ∉ m
  | .notFound n => '\n' ∉ n
  | .forbidden u n => '\n' ∉ u ∧ '\n' ∉ n
  | .badCount c => '\n' ∉ c
  | .conflict m => '\n' ∉ m

/-- The request was for a cluster of somebody else. -/
def Foreign : Fault → Prop
  | .forbidden _ _ => True
  | _ => False

theorem oneLine_iff (f : Fault) : OneLine f ↔ '\n' ∉ f.http.2 := by
  cases f <;> simp [OneLine, Fault.http]

theorem refusal_plain (strict : Bool) (f : Fault) (h : strict = false ∨ OneLine f) :
    refusal strict f = ⟨f.http.1, some (.obj [("error".toList, .str f.http.2)]), []⟩ := by
  unfold refusal
  rw [if_neg]
  rcases h with rfl | h
  · simp
  · have := (oneLine_iff f).1 h
    simp [this]

theorem refusal_lines (f : Fault) (h : ¬ OneLine f) : refusal true f = trouble := by
  unfold refusal
  rw [if_pos]
  have : '\n' ∈ f.http.2 := Classical.not_not.1 (fun k => h ((oneLine_iff f).2 k))
  simp [this]

theorem errorMsg_plain (n : Nat) (m t : Str) : errorMsg ⟨n, some (.obj [("error".toList, .str m)]), t⟩ = .str m := by
  simp [errorMsg, lookup]

/-- **C194 (exactly which, partial).** A user whose request is refused gets the exception and the message that they are
promised, exactly if the cluster is not that of somebody else and, with a strict aiohttp, the message has one line.

What is missing are the others (`C194_lines_violated`, `C194_forbidden_violated`). -/
theorem C194_exact_partial (strict : Bool) (f : Fault) :
    (∃ e, told strict f = .error e ∧ Promised f e) ↔ ¬ Foreign f ∧ (strict = true → OneLine f) := by
  by_cases h : strict = false ∨ OneLine f
  · have h2 : strict = true → OneLine f := by
      intro hs
      rcases h with h | h
      · rw [hs] at h; cases h
      · exact h
    have e := refusal_plain strict f h
    cases f <;> simp only [told, e, Fault.http, conclude, errorMsg_plain, Promised, Foreign] <;> simp
    all_goals try exact fun hs => h2 hs
  · have hs : strict = true := by
      cases strict with
      | true => rfl
      | false => exact absurd (Or.inl rfl) h
    have ho : ¬ OneLine f := fun k => h (Or.inr k)
    subst hs
    constructor
    · rintro ⟨e, h1, h2⟩
      exfalso
      have h3 : told true f = .error (.server (.str trouble.text)) := by
        unfold told
        rw [refusal_lines f ho]
        rfl
      rw [h3] at h1
      cases h1
      cases f <;> simp only [Promised] at h2 <;> try (simp at h2; done)
      obtain ⟨k, hk, h4⟩ := h2
      rcases hk with rfl | rfl | rfl
      · simp at h4
      · simp at h4
      · simp [trouble] at h4
    · rintro ⟨_, h2⟩
      exact absurd (h2 rfl) ho

/-- **C194 (lines, violated).** Not every message arrives: what the options of an administrator say on two lines becomes
an error of the server without a message. -/
theorem C194_lines_violated : ∃ m : Str, ¬ Foreign (.refused m) ∧
    told true (.refused m) = .error (.server (.str "500 Internal Server Error".toList)) :=
  ⟨"too many cores\nat most 4".toList, id, by decide +kernel⟩

/-- **C194 (forbidden, violated).** No message about the cluster of somebody else arrives: the client raises what its HTTP
library makes of the status. -/
theorem C194_forbidden_violated (u n : Str) : told false (.forbidden u n) = .error (.http 403) := by
  have e := refusal_plain false (.forbidden u n) (Or.inl rfl)
  simp [told, e, Fault.http, conclude]

/-- Not vacuous: messages that arrive, and one of two lines. -/
example : told true (.refused "too many cores".toList) = .error (.value (.str "too many cores".toList)) ∧
    told true (.notFound "c1".toList) = .error (.value (.str "Cluster c1 not found".toList)) ∧
    told true (.conflict "cluster c1 is not running".toList) = .error (.cluster (.str "cluster c1 is not running".toList)) ∧
    told true (.badCount "-1".toList)
      = .error (.value (.str "Scale expects a non-negative integer, got -1".toList)) ∧
    told false (.refused "a\nb".toList) = .error (.value (.str "a\nb".toList)) := by
  decide +kernel

end Verif.Client
