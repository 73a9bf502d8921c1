import Verif.Router.Listing
import Verif.Router.Props
/-
C187: the JSON listing of the routing table.
-/
set_option linter.unusedSimpArgs false
namespace Verif.Router
variable {U V : Type}

theorem traverse_single (ops : List (Op U)) : ∀ a ∈ traverse [] (Router.run ops),
    ∀ b ∈ traverse [] (Router.run ops), a.1 = b.1 → a = b := by
  rintro ⟨n, u⟩ ha ⟨n', u'⟩ hb e
  dsimp only at e; subst e
  rw [mem_traverse _ (distinct_run ops), look_run] at ha hb
  obtain ⟨k, h1, h2⟩ := ha
  obtain ⟨k', h3, h4⟩ := hb
  simp only [List.nil_append] at h2 h4
  have := routeName_inj k k' (tableOf_seg ops k u h1) (tableOf_seg ops k' u' h3) (h2 ▸ h4)
  subst this
  rw [h1] at h3; injection h3 with h3; rw [h3]

/-- C187: after every history of updates the listing has an entry exactly for each route of the table:
under the route's segments, each behind a slash, with the string of its target. -/
theorem C187_exact (ops : List (Op U)) (str : U → V) (name : Str) (v : V) :
    (name, v) ∈ (Router.run ops).listing str ↔
      ∃ k u, tableOf ops k = some u ∧ name = routeName k ∧ v = str u := by
  unfold Router.listing
  rw [mem_fold str _ _ _ (traverse_single ops)]
  constructor
  · rintro (⟨⟨n, u⟩, h, e⟩ | ⟨h, _⟩)
    · rw [mem_traverse _ (distinct_run ops), look_run] at h
      obtain ⟨k, h1, h2⟩ := h
      injection e with e1 e2
      exact ⟨k, u, h1, by simpa [e1] using h2, e2⟩
    · simp at h
  · rintro ⟨k, u, h1, rfl, rfl⟩
    refine .inl ⟨(routeName k, u), ?_, rfl⟩
    rw [mem_traverse _ (distinct_run ops), look_run]
    exact ⟨k, h1, by simp⟩

/-- C187: no name occurs twice in the listing, and different routes have different names, so that no
route hides another one. -/
theorem C187_once (ops : List (Op U)) (str : U → V) :
    (((Router.run ops).listing str).map (·.1)).Nodup ∧
    (∀ k k', (tableOf ops k).isSome → (tableOf ops k').isSome → routeName k = routeName k' →
      k = k') := by
  refine ⟨fold_nodup str _ _ (by simp), ?_⟩
  intro k k' h h' e
  obtain ⟨u, hu⟩ := Option.isSome_iff_exists.mp h
  obtain ⟨u', hu'⟩ := Option.isSome_iff_exists.mp h'
  exact routeName_inj k k' (tableOf_seg ops k u hu) (tableOf_seg ops k' u' hu') e

/-- C187: the listing does not depend on the order in which Go visits the entries of maps: the same
calls in any order build the same map. -/
theorem C187_order (ops : List (Op U)) (str : U → V) (calls : List (Str × U))
    (h : calls.Perm (traverse [] (Router.run ops))) (e : Str × V) :
    e ∈ calls.foldl (fun out c => setOut out c.1 (str c.2)) [] ↔
      e ∈ (Router.run ops).listing str := by
  unfold Router.listing
  rw [mem_fold str _ _ _ (traverse_single ops), mem_fold str]
  · simp [h.mem_iff]
  · intro a ha b hb
    exact traverse_single ops a (h.mem_iff.mp ha) b (h.mem_iff.mp hb)

theorem tableOf_puts (l : List (Str × U))
    (hl : ∀ a ∈ l, ∀ b ∈ l, key a.1 = key b.1 → a = b) (k : List Str) (u : U) :
    tableOf (l.map (fun e => Op.put e.1 e.2)) k = some u ↔ ∃ e ∈ l, key e.1 = k ∧ e.2 = u := by
  induction l using snoc_induction with
  | nil => simp [tableOf]
  | snoc l a ih =>
    rw [List.map_append, List.map_cons, List.map_nil, tableOf_snoc]
    dsimp only
    split
    · rename_i hk
      subst hk
      constructor
      · intro h; injection h with h; exact ⟨a, by simp, rfl, h⟩
      · rintro ⟨e, he, h1, h2⟩
        have := hl e he a (by simp) h1
        subst this; rw [h2]
    · rename_i hk
      rw [ih (fun x hx y hy => hl x (by simp [hx]) y (by simp [hy]))]
      constructor
      · rintro ⟨e, he, h⟩; exact ⟨e, by simp [he], h⟩
      · rintro ⟨e, he, h1, h2⟩
        rcases List.mem_append.mp he with he | he
        · exact ⟨e, he, h1, h2⟩
        · simp at he; subst he; exact absurd h1.symm hk

/-- C187: put into a new router in any order, the entries of the listing give the same routing, for
tables without a route that ends in an empty segment. -/
theorem C187_reload_partial (ops : List (Op U)) (entries : List (Str × U))
    (hp : ∀ e, e ∈ entries ↔ e ∈ (Router.run ops).listing id)
    (hl : ∀ k, (tableOf ops k).isSome → k.getLast? ≠ some []) :
    tableOf (entries.map (fun e => Op.put e.1 e.2)) = tableOf ops ∧
    ∀ path, (Router.run (entries.map (fun e => Op.put e.1 e.2))).match_ path =
      (Router.run ops).match_ path := by
  have hmem : ∀ e, e ∈ entries → ∃ k, tableOf ops k = some e.2 ∧ e.1 = routeName k ∧
      key e.1 = k := by
    rintro ⟨n, u⟩ he
    obtain ⟨k, u', h1, h2, h3⟩ := (C187_exact ops id n u).mp ((hp _).mp he)
    subst h2; simp at h3; subst h3
    exact ⟨k, h1, rfl, key_routeName k (tableOf_seg ops k _ h1) (hl k (by simp [h1]))⟩
  have ht : tableOf (entries.map (fun e => Op.put e.1 e.2)) = tableOf ops := by
    funext k
    apply Option.ext
    intro u
    rw [tableOf_puts]
    · constructor
      · rintro ⟨e, he, rfl, rfl⟩
        obtain ⟨k', h1, h2, h3⟩ := hmem e he
        rw [h3]; exact h1
      · intro h
        refine ⟨(routeName k, u), (hp _).mpr ((C187_exact ops id _ _).mpr ⟨k, u, h, rfl, rfl⟩), ?_, rfl⟩
        exact key_routeName k (tableOf_seg ops k _ h) (hl k (by simp [h]))
    · rintro ⟨a, u⟩ ha ⟨b, v⟩ hb e
      obtain ⟨k, h1, h2, h3⟩ := hmem _ ha
      obtain ⟨k', h4, h5, h6⟩ := hmem _ hb
      dsimp only at *
      rw [h3, h6] at e
      subst e
      rw [h1] at h4
      injection h4 with h4
      rw [h2, h5, h4]
  exact ⟨ht, fun path => (routing_depends_on_table_only _ _ ht path).1⟩

/-- C187: with such a route the entry is read back as another route. -/
theorem C187_reload_violated : ∃ (ops : List (Op Nat)) (path : Str),
    (Router.run (((Router.run ops).listing id).map (fun e => Op.put e.1 e.2))).match_ path ≠
      (Router.run ops).match_ path :=
  ⟨[.put "/a//".toList 1], "/a/b".toList, by decide +kernel⟩

/-! Non-vacuity. -/

example : ∀ e ∈ [("".toList, 0), ("/clusters/a".toList, 1), ("/clusters/a/status".toList, 2),
      ("//x".toList, 4)], e ∈ (Router.run demo).listing id := by
  decide +kernel
example : ((Router.run demo).listing id).length = 4 := by decide +kernel
example : tableOf demo [] = some 0 := by decide +kernel
/-- The hypothesis of `C187_reload_partial` for a table with two routes. -/
example : ∀ path, (Router.run [Op.put "/x/y".toList 2, .put "/clusters/a".toList 1]).match_ path =
    (Router.run [.put "/clusters/a/".toList 1, .put "x/y".toList 2]).match_ path := by
  have h1 : key "/clusters/a/".toList = ["clusters".toList, "a".toList] := by decide +kernel
  have h2 : key "x/y".toList = ["x".toList, "y".toList] := by decide +kernel
  have hl : (Router.run [.put "/clusters/a/".toList 1, .put "x/y".toList 2]).listing id =
      [("/clusters/a".toList, 1), ("/x/y".toList, 2)] := by decide +kernel
  refine (C187_reload_partial [.put "/clusters/a/".toList 1, .put "x/y".toList 2]
    [("/x/y".toList, 2), ("/clusters/a".toList, 1)] ?_ ?_).2
  · intro e; rw [hl]; simp [or_comm]
  · intro k hk
    simp only [tableOf, List.foldl_cons, List.foldl_nil, h1, h2] at hk
    by_cases e1 : k = ["x".toList, "y".toList]
    · subst e1; decide +kernel
    · by_cases e2 : k = ["clusters".toList, "a".toList]
      · subst e2; decide +kernel
      · rw [if_neg e1, if_neg e2] at hk; cases hk

end Verif.Router
