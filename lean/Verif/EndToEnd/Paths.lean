import Verif.EndToEnd.Inv
/-
The segments of the paths of clusters.
-/
set_option linter.unusedSimpArgs false
set_option linter.unusedVariables false
namespace Verif.EndToEnd
open Verif.Router (Str key splitSlash stripLead stripTrail)
open Verif.ProxyEvents (ValidPrefix)

theorem splitSlash_app (a b : Str) : splitSlash (a ++ '/' :: b) = splitSlash a ++ splitSlash b := by
  induction a with
  | nil => simp [splitSlash]
  | cons c a ih =>
    simp only [List.cons_append, splitSlash]
    by_cases hc : c = '/'
    · simp [hc, ih]
    · simp only [if_neg hc, ih]
      cases h : splitSlash a with
      | nil => exact absurd h (Verif.Router.splitSlash_ne_nil a)
      | cons x xs => rfl

/-- Taking off a trailing slash behind a slash. -/
theorem stripTrail_slash (y r : Str) (hy : y.getLast? ≠ some '/') :
    stripTrail (y ++ '/' :: r) = y ∨ ∃ r', stripTrail (y ++ '/' :: r) = y ++ '/' :: r' := by
  rw [Verif.Router.stripTrail_eq]
  by_cases h : (y ++ '/' :: r).getLast? = some '/'
  · rw [if_pos h]
    rcases List.eq_nil_or_concat r with rfl | ⟨r', c, rfl⟩
    · left; simp
    · right
      refine ⟨r', ?_⟩
      have : y ++ '/' :: (r' ++ [c]) = (y ++ '/' :: r') ++ [c] := by simp
      rw [List.concat_eq_append, this, List.dropLast_concat]
  · rw [if_neg h]; exact Or.inr ⟨r, rfl⟩

theorem stripTrail_none (y : Str) (hy : y.getLast? ≠ some '/') : stripTrail y = y := by
  rw [Verif.Router.stripTrail_eq, if_neg hy]

theorem key_slash (x : Str) : key ('/' :: x) = if stripTrail x = [] then [] else splitSlash (stripTrail x) := rfl

/-- What follows the path of a cluster in a request. -/
def Below (rest : Str) : Prop := rest = [] ∨ ∃ r, rest = '/' :: r

private theorem last_ne {x : Str} (hx : x ≠ []) (hs : '/' ∉ x) (y : Str) : (y ++ x).getLast? ≠ some '/' := by
  rw [List.getLast?_append, List.getLast?_eq_some_getLast hx]
  simp only [Option.some_or, ne_eq, Option.some.injEq]
  intro e
  exact hs (e ▸ List.getLast_mem hx)

private theorem key_below {b w : Str} (hne : w ≠ []) (hs : '/' ∉ w) {rest : Str} (hr : Below rest) :
    ∃ more, key ('/' :: (b ++ '/' :: w ++ rest)) = splitSlash b ++ [w] ++ more ∧ (rest = [] → more = []) := by
  have hl : (b ++ '/' :: w).getLast? ≠ some '/' := by
    have : b ++ '/' :: w = (b ++ ['/']) ++ w := by simp
    rw [this]; exact last_ne hne hs _
  have hn : ∀ z : Str, b ++ '/' :: w ++ z ≠ [] := by simp
  have hsp : splitSlash (b ++ '/' :: w) = splitSlash b ++ [w] := by
    rw [splitSlash_app, Verif.Router.splitSlash_noslash w hs]
  rw [key_slash]
  rcases hr with rfl | ⟨r, rfl⟩
  · refine ⟨[], ?_, fun _ => rfl⟩
    rw [List.append_nil, stripTrail_none _ hl, if_neg (by simp), hsp, List.append_nil]
  · rcases stripTrail_slash (b ++ '/' :: w) r hl with e | ⟨r', e⟩
    · refine ⟨[], ?_, fun h => by cases h⟩
      rw [e, if_neg (by simp), hsp, List.append_nil]
    · refine ⟨splitSlash r', ?_, fun h => by cases h⟩
      rw [e, if_neg (by simp), splitSlash_app, hsp]

private theorem key_below0 {w : Str} (hne : w ≠ []) (hs : '/' ∉ w) {rest : Str} (hr : Below rest) :
    ∃ more, key ('/' :: (w ++ rest)) = [w] ++ more ∧ (rest = [] → more = []) := by
  have hl : w.getLast? ≠ some '/' := by simpa using last_ne hne hs []
  have hsp : splitSlash w = [w] := Verif.Router.splitSlash_noslash w hs
  rw [key_slash]
  rcases hr with rfl | ⟨r, rfl⟩
  · refine ⟨[], ?_, fun _ => rfl⟩
    rw [List.append_nil, stripTrail_none _ hl, if_neg hne, hsp]; rfl
  · rcases stripTrail_slash w r hl with e | ⟨r', e⟩
    · refine ⟨[], ?_, fun h => by cases h⟩
      rw [e, if_neg hne, hsp]; rfl
    · refine ⟨splitSlash r', ?_, fun h => by cases h⟩
      rw [e, if_neg (by simp), splitSlash_app, hsp]

theorem prefix_cases {pfx : Str} (h : ValidPrefix pfx) : pfx = [] ∨ ∃ x, pfx = '/' :: x ∧ x ≠ [] ∧ x.getLast? ≠ some '/' := by
  rcases h with h | ⟨h1, h2⟩
  · exact Or.inl h
  · right
    cases pfx with
    | nil => simp at h1
    | cons c x =>
      simp at h1; subst h1
      refine ⟨x, rfl, ?_, ?_⟩
      · rintro rfl; simp at h2
      · cases x with
        | nil => simp at h2
        | cons a x => rwa [List.getLast?_cons_cons] at h2

theorem key_root {pfx : Str} (h : ValidPrefix pfx) : (pfx = [] ∧ key (pfx ++ ['/']) = []) ∨
    ∃ x, pfx = '/' :: x ∧ key (pfx ++ ['/']) = splitSlash x := by
  rcases prefix_cases h with rfl | ⟨x, rfl, hx, hl⟩
  · exact Or.inl ⟨rfl, by decide⟩
  · refine Or.inr ⟨x, rfl, ?_⟩
    have e : '/' :: x ++ ['/'] = '/' :: (x ++ ['/']) := rfl
    have e2 : stripTrail (x ++ ['/']) = x := by
      rw [Verif.Router.stripTrail_eq, if_pos (by simp), List.dropLast_concat]
    rw [e, key_slash, e2, if_neg hx]

/-- One segment behind the prefix. -/
theorem key_one {pfx : Str} (h : ValidPrefix pfx) {w : Str} (hne : w ≠ []) (hs : '/' ∉ w) {rest : Str} (hr : Below rest) :
    ∃ more, key (pfx ++ '/' :: w ++ rest) = key (pfx ++ ['/']) ++ [w] ++ more := by
  rcases key_root h with ⟨rfl, e⟩ | ⟨x, rfl, e⟩
  · obtain ⟨more, e1, -⟩ := key_below0 hne hs hr
    exact ⟨more, by rw [e]; exact e1⟩
  · obtain ⟨more, e1, -⟩ := key_below (b := x) hne hs hr
    refine ⟨more, ?_⟩
    rw [e]
    exact e1

/-- The word "clusters". -/
def clustersWord : Str := ['c','l','u','s','t','e','r','s']

theorem clusters_split : "/clusters/".toList = '/' :: clustersWord ++ ['/'] := by decide +kernel

/-- The path of a cluster, and of what is below it. -/
theorem key_cluster {pfx : Str} (h : ValidPrefix pfx) {w : Str} (hne : w ≠ []) (hs : '/' ∉ w) {rest : Str} (hr : Below rest) :
    ∃ more, key (pfx ++ ("/clusters/".toList ++ w) ++ rest) = key (pfx ++ ['/']) ++ [clustersWord, w] ++ more ∧
      (rest = [] → more = []) := by
  rw [clusters_split]
  rcases key_root h with ⟨rfl, e⟩ | ⟨x, rfl, e⟩
  · obtain ⟨more, e1, e2⟩ := key_below (b := clustersWord) hne hs hr
    refine ⟨more, ?_, e2⟩
    have : [] ++ ('/' :: clustersWord ++ ['/'] ++ w) ++ rest = '/' :: (clustersWord ++ '/' :: w ++ rest) := by simp
    rw [this, e1, e]
    have : splitSlash clustersWord = [clustersWord] := by decide
    rw [this]; rfl
  · obtain ⟨more, e1, e2⟩ := key_below (b := x ++ '/' :: clustersWord) hne hs hr
    refine ⟨more, ?_, e2⟩
    have : '/' :: x ++ ('/' :: clustersWord ++ ['/'] ++ w) ++ rest = '/' :: ((x ++ '/' :: clustersWord) ++ '/' :: w ++ rest) := by simp
    rw [this, e1, e, splitSlash_app]
    have : splitSlash clustersWord = [clustersWord] := by decide
    rw [this]; simp

end Verif.EndToEnd
