import Verif.Boot.Props
/-
C125: flags of the proxy that are written with `=`.
-/
namespace Verif.Boot

/-- C125: a flag written as `-name=value` or `--name=value` has exactly this name and this value, whatever characters the
value has. -/
theorem C125_written (c : Char) (name value : Str) (h1 : c ≠ '-' ∧ c ≠ '=') (h2 : '=' ∉ name) :
    word ('-' :: c :: name ++ '=' :: value) = .flag (c :: name) (some value) ∧
    word ('-' :: '-' :: c :: name ++ '=' :: value) = .flag (c :: name) (some value) := by
  have hc : cut (c :: (name ++ '=' :: value)) = .flag (c :: name) (some value) := by
    have ht : (name ++ '=' :: value).takeWhile (· != '=') = name ∧
        (name ++ '=' :: value).dropWhile (· != '=') = '=' :: value := by
      clear h1
      induction name with
      | nil => exact ⟨rfl, rfl⟩
      | cons a l ih =>
        have ha : (a != '=') = true := by
          rw [bne_iff_ne]; exact fun e => h2 (by rw [e]; exact List.mem_cons_self)
        obtain ⟨i1, i2⟩ := ih (fun hm => h2 (List.mem_cons_of_mem _ hm))
        rw [List.cons_append, List.takeWhile_cons, List.dropWhile_cons, if_pos ha, if_pos ha, i1, i2]
        exact ⟨rfl, rfl⟩
    unfold cut
    dsimp only
    rw [if_neg (by rintro (h | h); exact h1.1 h; exact h1.2 h),
      if_pos (by rw [List.contains_iff_mem]; exact List.mem_append_right _ List.mem_cons_self), ht.1, ht.2]
    rfl
  constructor
  · show word ('-' :: c :: (name ++ '=' :: value)) = _
    rw [← hc]
    generalize name ++ '=' :: value = t
    unfold word
    split
    · next h => injection h with _ h; injection h with h _; exact absurd h h1.1
    · next h => injection h with _ h; injection h with h _; exact absurd h h1.1
    · next h => cases h; rfl
    · next h => exact absurd rfl (h _ _)
  · unfold word
    rw [List.cons_append, List.cons_append, List.cons_append]
    exact hc

example : word "-address=a=b:1".toList = .flag "address".toList (some "a=b:1".toList) ∧
    (('a' : Char) ≠ '-' ∧ ('a' : Char) ≠ '=') ∧ '=' ∉ "ddress".toList := by decide +kernel

/-- C125: a flag without a value that is no truth value, an unknown flag and a dash too many are refused. -/
theorem C125_bad_flags (f : Flags) (name : Str) :
    (word name = .bad → parseFlags f [name] = none) ∧
    (∀ n v, word name = .flag n v → n ∉ ["address", "tcp-address", "api-url", "log-level", "tls-cert", "tls-key",
      "is-child-process"].map String.toList → ∀ l, parseFlags f (name :: l) = none) ∧
    (∀ n, word name = .flag n none → n ≠ "is-child-process".toList → parseFlags f [name] = none) := by
  refine ⟨fun h => ?_, fun n v h hn l => ?_, fun n h hn => ?_⟩
  · rw [parseFlags, h]
  · simp only [List.map_cons, List.map_nil, List.mem_cons, List.not_mem_nil, or_false, not_or] at hn
    obtain ⟨n1, n2, n3, n4, n5, n6, n7⟩ := hn
    have hset : ∀ x, f.set n x = none := by
      intro x
      unfold Flags.set
      rw [if_neg n1, if_neg n2, if_neg n3, if_neg n4, if_neg n5, if_neg n6]
    cases l with
    | nil =>
      rw [parseFlags, h]
      dsimp only
      rw [if_neg n7]
      cases v with
      | none => rfl
      | some x => exact hset x
    | cons a l =>
      rw [parseFlags, h]
      dsimp only
      rw [if_neg n7]
      cases v with
      | none => dsimp only; rw [hset]
      | some x => dsimp only; rw [hset]
  · rw [parseFlags, h]
    dsimp only
    rw [if_neg hn]

example : word "--".toList = .rest ∧ word "---x".toList = .bad ∧ word "-verbose".toList = .flag "verbose".toList none ∧
    word "-address".toList = .flag "address".toList none := by decide +kernel

end Verif.Boot
