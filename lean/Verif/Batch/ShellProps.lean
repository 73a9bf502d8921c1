import Verif.Batch.Shell
/-! That the model of the shell, which C119 and C123 rest on, is as POSIX has it in two further respects. -/
namespace Verif.Batch

/-- The words that POSIX reserves (2.4), apart from those made of characters with a meaning. -/
def posixReserved : List Str :=
  ["if".toList, "then".toList, "else".toList, "elif".toList, "fi".toList, "do".toList, "done".toList, "case".toList,
    "esac".toList, "while".toList, "until".toList, "for".toList, "in".toList]

/-- None of them, in front, is a command. -/
theorem shell_reserved (env : Str → Option Str) (w : Str) (h : w ∈ posixReserved) : shWords env w = none := by
  simp only [posixReserved, List.mem_cons, List.not_mem_nil, or_false] at h
  rcases h with rfl | rfl | rfl | rfl | rfl | rfl | rfl | rfl | rfl | rfl | rfl | rfl | rfl <;> rfl

/-- After the name of a parameter (2.6.2) the line goes on as if the value had been there. -/
theorem shell_parameter (env : Str → Option Str) (name : Str) (cur : Option Str) (acc : List Str) (c : Char) (s : Str)
    (hn : name ≠ []) (hc : isName c = false) :
    fields env (.param name) cur acc (c :: s) =
      (match expand env name cur with
        | none => none
        | some cur => fields env .plain cur acc (c :: s)) := by
  rw [fields, if_neg (fun h => hn h.1), hc, if_neg (by decide), if_neg hn]
  cases expand env name cur with
  | none => rfl
  | some cur => dsimp only; rw [fields]

/-- The same within braces. -/
theorem shell_braces (env : Str → Option Str) (name : Str) (cur : Option Str) (acc : List Str) (s : Str) (hn : name ≠ []) :
    fields env (.brace name) cur acc ('}' :: s) =
      (match expand env name cur with
        | none => none
        | some cur => fields env .plain cur acc s) := by
  rw [fields, if_neg (by decide), if_pos ⟨rfl, hn⟩]
  rfl

end Verif.Batch
