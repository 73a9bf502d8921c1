import Verif.Router.Lemmas2
/-
C08, C09, C10: HTTP routing.
-/
namespace Verif.Router
variable {U : Type}

/-- C08: after every history of updates, a request is routed to the target of the longest registered
prefix of its segments, and to nothing exactly when no prefix is registered. -/
theorem match_longest_prefix (ops : List (Op U)) (path : Str) :
    match (Router.run ops).match_ path with
    | none => ∀ k, k <+: key path → tableOf ops k = none
    | some (u, _) => ∃ k, Longest (tableOf ops) (key path) k u := by
  rcases match_spec (Router.run ops) (by rw [look_run]; exact tableOf_empty_seg ops) path with
    ⟨h, e⟩ | ⟨k, post, u, h1, h2, e⟩
  · rw [e, ← look_run]; exact h
  · rw [e, ← look_run]; exact ⟨k, h2⟩

/-- C08: the longest prefix with a route is unique, so that `match_longest_prefix` determines the
target. -/
theorem longest_unique (m : Table U) (segs k k' : List Str) (u u' : U)
    (h : Longest m segs k u) (h' : Longest m segs k' u') : k = k' ∧ u = u' := by
  have h1 := h.2.2 k' h'.1 (by rw [h'.2.1]; rfl)
  have h2 := h'.2.2 k h.1 (by rw [h.2.1]; rfl)
  have : k = k' := (List.prefix_of_prefix_length_le h.1 h'.1 h2).eq_of_length (by omega)
  subst this
  exact ⟨rfl, Option.some.inj (h.2.1.symm.trans h'.2.1)⟩

/-- C08: `HasMatch` says yes exactly when `Match` finds a target. -/
theorem hasMatch_iff_match (ops : List (Op U)) (path : Str) :
    (Router.run ops).hasMatch path = true ↔ ((Router.run ops).match_ path).isSome := by
  have hr : look (Router.run ops) [[]] = none := by rw [look_run]; exact tableOf_empty_seg ops
  rw [hasMatch_spec _ hr]
  rcases match_spec (Router.run ops) hr path with ⟨h, e⟩ | ⟨k, post, u, h1, h2, e⟩
  · rw [e]
    simp only [Option.isSome_none, Bool.false_eq_true, iff_false, not_exists, not_and]
    intro k hk; rw [h k hk]; simp
  · rw [e]
    simp only [Option.isSome_some, iff_true]
    exact ⟨k, h2.1, by rw [h2.2.1]; rfl⟩

/-- C09: histories with the same final table route every request identically. -/
theorem routing_depends_on_table_only (ops ops' : List (Op U)) (h : tableOf ops = tableOf ops')
    (path : Str) : (Router.run ops).match_ path = (Router.run ops').match_ path ∧
      (Router.run ops).hasMatch path = (Router.run ops').hasMatch path := by
  have e : (Router.run ops).match_ path = (Router.run ops').match_ path := by
    have hl : look (Router.run ops) = look (Router.run ops') := by rw [look_run, look_run, h]
    have hr : look (Router.run ops) [[]] = none := by rw [look_run]; exact tableOf_empty_seg ops
    have hr' := hr; rw [hl] at hr'
    rcases match_spec (Router.run ops) hr path with ⟨a, e⟩ | ⟨k, post, u, a1, a2, e⟩ <;>
    rcases match_spec (Router.run ops') hr' path with ⟨a', e'⟩ | ⟨k', post', u', a1', a2', e'⟩
    · rw [e, e']
    · have := a k' a2'.1; rw [hl, a2'.2.1] at this; simp at this
    · have := a' k a2.1; rw [← hl, a2.2.1] at this; simp at this
    · rw [← hl] at a2'
      obtain ⟨rfl, rfl⟩ := longest_unique _ _ _ _ _ _ a2 a2'
      rw [a1] at a1'
      rw [List.append_cancel_left a1'] at e
      rw [e, e']
  refine ⟨e, ?_⟩
  have h1 := hasMatch_iff_match ops path
  have h2 := hasMatch_iff_match ops' path
  rw [e] at h1
  rw [Bool.eq_iff_iff, h1, h2]

/-- C09: one more update changes the table at its own key only, as a map update does. -/
theorem update_is_map_update (ops : List (Op U)) (path : Str) (u : U) (k : List Str) :
    (tableOf (ops ++ [.put path u]) k = if k = key path then some u else tableOf ops k) ∧
    (tableOf (ops ++ [.delete path]) k = if k = key path then none else tableOf ops k) := by
  rw [tableOf_snoc, tableOf_snoc]; exact ⟨rfl, rfl⟩

/-- C09: the stored target of every key is the one the table gives; in particular a `Put` or `Delete`
of the router itself is the map update of the table. -/
theorem stored_target (ops : List (Op U)) (k : List Str) :
    (walk (Router.run ops) k).bind Router.url = tableOf ops k := by
  rw [← look_run]; rfl

/-- C09: no residue: below the root a node exists exactly if some registered route runs through it. -/
theorem node_iff_route_below (ops : List (Op U)) (k : List Str) (hk : k ≠ []) :
    (walk (Router.run ops) k).isSome ↔ ∃ k', (tableOf ops (k ++ k')).isSome := by
  rw [← look_run]
  constructor
  · intro h
    cases hw : walk (Router.run ops) k with
    | none => rw [hw] at h; simp at h
    | some n =>
      cases k with
      | nil => exact absurd rfl hk
      | cons s k =>
        have hc := run_clean ops
        have hw' := hw
        simp only [walk] at hw
        cases hg : getB (Router.run ops).branches s with
        | none => rw [hg] at hw; simp at hw
        | some c =>
          rw [hg] at hw
          obtain ⟨k', hk'⟩ := (hc s c hg).2 k n hw
          exact ⟨k', by rw [look_append hw']; exact hk'⟩
  · rintro ⟨k', h⟩; exact walk_isSome_of_look h

/-- C09: when every route has been deleted the router is the new router again. -/
theorem empty_table_empty_router (ops : List (Op U)) (h : ∀ k, tableOf ops k = none) :
    Router.run ops = Router.new := by
  have hl := look_run ops
  have hc := run_clean ops
  generalize Router.run ops = r at *
  obtain ⟨u, b⟩ := r
  have hu : u = none := by
    have := h []; rw [← hl] at this; simpa using this
  cases b with
  | nil => rw [hu]; rfl
  | cons e b =>
    obtain ⟨s, c⟩ := e
    obtain ⟨k, hk⟩ := (hc s c (by simp [getB])).1
    have := h (s :: k)
    rw [← hl, look_cons] at this
    simp [getB] at this
    rw [this] at hk; simp at hk

/-- C10: the forwarded path is the rest of the request path after the segments of the matched route,
with a trailing slash exactly if the request had one. -/
theorem forwarded_rest (ops : List (Op U)) (path rest : Str) (u : U)
    (h : (Router.run ops).match_ path = some (u, rest)) :
    ∃ k post, key path = k ++ post ∧ Longest (tableOf ops) (key path) k u ∧
      rest = joinSlash post ++ trailing path := by
  rcases match_spec (Router.run ops) (by rw [look_run]; exact tableOf_empty_seg ops) path with
    ⟨_, e⟩ | ⟨k, post, u', h1, h2, e⟩
  · rw [e] at h; simp at h
  · rw [e] at h
    simp only [Option.some.injEq, Prod.mk.injEq] at h
    obtain ⟨rfl, rfl⟩ := h
    rw [look_run] at h2
    exact ⟨k, post, h1, h2, rfl⟩

theorem joinSlash_append (k post : List Str) :
    joinSlash (k ++ post) =
      joinSlash k ++ (if k = [] ∨ post = [] then [] else ['/']) ++ joinSlash post := by
  induction k with
  | nil => simp [joinSlash]
  | cons s k ih =>
    by_cases hk : k = []
    · subst hk
      by_cases hp : post = []
      · subst hp; simp [joinSlash]
      · rw [List.cons_append, List.nil_append, joinSlash_cons _ _ hp]
        simp [joinSlash, hp]
    · rw [List.cons_append, joinSlash_cons _ _ (by simp [hk]), joinSlash_cons _ _ hk, ih]
      simp [hk]

/-- C10: joined back to the matched route, the forwarded path gives the request path: an optional
leading slash, the matched route, a slash where both sides are there, the rest. -/
theorem joined_back (ops : List (Op U)) (path rest : Str) (u : U)
    (h : (Router.run ops).match_ path = some (u, rest)) :
    ∃ k lead sep, tableOf ops k = some u ∧ (lead = [] ∨ lead = ['/']) ∧
      (sep = [] ∨ (sep = ['/'] ∧ k ≠ [])) ∧ path = lead ++ joinSlash k ++ sep ++ rest := by
  obtain ⟨k, post, h1, h2, rfl⟩ := forwarded_rest ops path rest u h
  obtain ⟨lead, l1, l2, l3⟩ := normalizePath_spec path
  refine ⟨k, lead, if k = [] ∨ post = [] then [] else ['/'], h2.2.1, l1, ?_, ?_⟩
  · split
    · left; rfl
    · rename_i hh; right; exact ⟨rfl, fun e => hh (Or.inl e)⟩
  · rw [← joinSlash_key, h1, joinSlash_append] at l3
    simpa using l3

/-- C10: the target's path and the forwarded path are joined by exactly one slash. -/
theorem single_slash_join (a b : Str) :
    singleJoiningSlash a b = stripTrail a ++ '/' :: stripLead b := by
  unfold singleJoiningSlash
  rw [stripTrail_eq, stripLead_eq]
  by_cases ha : a.getLast? = some '/' <;> by_cases hb : b.head? = some '/'
  · have := append_trailing a
    rw [stripTrail_eq] at this
    simp only [trailing, ha, if_true] at this
    simp only [ha, hb, decide_true, Bool.and_self, if_true]
    conv => lhs; rw [← this]
    simp
  · have := append_trailing a
    rw [stripTrail_eq] at this
    simp only [trailing, ha, if_true] at this
    simp [ha, hb]
    conv => lhs; rw [← this]
    simp
  · cases b with
    | nil => simp at hb
    | cons c cs => simp at hb; subst hb; simp [ha]
  · simp [ha, hb]

/-! Non-vacuity. -/

def demo : List (Op Nat) :=
  [.put "/".toList 0, .put "/clusters/a".toList 1, .put "/clusters/a/status/".toList 2,
   .put "/clusters/b".toList 3, .delete "/clusters/b".toList, .put "//x".toList 4,
   .delete "/nope/x".toList]

example : (Router.run demo).match_ "/clusters/a/main.css".toList = some (1, "main.css".toList) := by
  decide +kernel
example : (Router.run demo).match_ "/clusters/a/status/x/y/".toList = some (2, "x/y/".toList) := by
  decide +kernel
example : (Router.run demo).match_ "/clusters/b/z".toList = some (0, "clusters/b/z".toList) := by
  decide +kernel
example : (Router.run demo).match_ "/".toList = some (0, "/".toList) := by decide +kernel
example : (Router.run demo).match_ "//x/y".toList = some (4, "y".toList) := by decide +kernel
/-- Without a root route there are paths with no match. -/
example : (Router.run [.put "/a/b".toList 1]).match_ "/a".toList = none ∧
    (Router.run [.put "/a/b".toList 1]).hasMatch "/a".toList = false := by decide +kernel
/-- Deleting prunes: the router is empty again. -/
example : Router.run [.put "/a/b/c".toList 1, .put "/a".toList 2, .delete "/a/b/c".toList,
    .delete "/a/".toList] = Router.new :=
  empty_table_empty_router _ (by
    have h1 : key "/a/b/c".toList = [['a'], ['b'], ['c']] := by decide +kernel
    have h2 : key "/a".toList = [['a']] := by decide +kernel
    have h3 : key "/a/".toList = [['a']] := by decide +kernel
    intro k
    simp only [tableOf, List.foldl_cons, List.foldl_nil, h1, h2, h3]
    by_cases e1 : k = [['a']] <;> by_cases e2 : k = [['a'], ['b'], ['c']] <;> simp [e1, e2])
/-- Different histories with the same table. -/
example : (Router.run [.put "/a".toList 1, .put "/b".toList 2]).match_ "/b/c".toList =
    (Router.run [.put "/b/".toList 2, .put "/a/x".toList 3, .put "a".toList 1,
      .delete "/a/x".toList]).match_ "/b/c".toList := by decide +kernel
example : singleJoiningSlash "/api/".toList "/x".toList = "/api/x".toList ∧
    singleJoiningSlash "".toList "x".toList = "/x".toList := by decide +kernel

end Verif.Router
