import Verif.Json
/-
Python dictionaries with string keys as association lists in insertion order, each key once.
Used for the dictionaries built in dask-gateway-server/dask_gateway_server/options.py and others.
-/
namespace Verif

/-- `d[k] = v` on a Python `dict`: an existing key keeps its place, a new one goes to the end
(options.py:93-96, 99-102, 304). -/
def Dict.set {β : Type} : List (Str × β) → Str → β → List (Str × β)
  | [], k, v => [(k, v)]
  | e :: d, k, v => if e.1 = k then (k, v) :: d else e :: Dict.set d k v

/-- A `dict` built from a sequence of pairs: the last one for a key counts (options.py:93-96,
99-102). -/
def Dict.ofList {β : Type} (l : List (Str × β)) : List (Str × β) :=
  l.foldl (fun d e => Dict.set d e.1 e.2) []

/-- `d.update(l)` (dask-gateway/dask_gateway/client.py:531-535). -/
def Dict.update {β : Type} (d l : List (Str × β)) : List (Str × β) :=
  l.foldl (fun d e => Dict.set d e.1 e.2) d

/-- The keys of a dictionary (options.py:85-96). -/
def Dict.keys {β : Type} (d : List (Str × β)) : List Str := d.map (·.1)

section
variable {β : Type}

@[simp] theorem lookup_nil (k : Str) : lookup ([] : List (Str × β)) k = none := rfl

theorem lookup_cons (e : Str × β) (d : List (Str × β)) (k : Str) :
    lookup (e :: d) k = if e.1 = k then some e.2 else lookup d k := by
  unfold lookup
  by_cases h : e.1 = k <;> simp [h]

theorem lookup_set (d : List (Str × β)) (k k' : Str) (v : β) :
    lookup (Dict.set d k v) k' = if k = k' then some v else lookup d k' := by
  induction d with
  | nil => simp [Dict.set, lookup_cons]
  | cons e d ih =>
    unfold Dict.set
    by_cases h : e.1 = k
    · subst h; simp only [if_pos, lookup_cons]
      by_cases g : e.1 = k' <;> simp [g]
    · simp only [if_neg h, lookup_cons, ih]
      by_cases g : e.1 = k'
      · subst g; simp [Ne.symm h]
      · simp [g]

theorem lookup_isSome {d : List (Str × β)} {k : Str} : (lookup d k).isSome ↔ k ∈ Dict.keys d := by
  induction d with
  | nil => simp [Dict.keys]
  | cons e d ih =>
    rw [lookup_cons]
    by_cases h : e.1 = k
    · simp [h, Dict.keys]
    · simp only [if_neg h, ih, Dict.keys, List.map_cons, List.mem_cons]
      constructor
      · exact Or.inr
      · rintro (h' | h')
        · exact absurd h'.symm h
        · exact h'

theorem lookup_eq_none {d : List (Str × β)} {k : Str} : lookup d k = none ↔ k ∉ Dict.keys d := by
  rw [← lookup_isSome]; cases lookup d k <;> simp

theorem mem_of_lookup {d : List (Str × β)} {k : Str} {v : β} (h : lookup d k = some v) :
    (k, v) ∈ d := by
  induction d with
  | nil => simp at h
  | cons e d ih =>
    rw [lookup_cons] at h
    by_cases g : e.1 = k
    · rw [if_pos g] at h
      cases h
      subst g
      simp
    · rw [if_neg g] at h
      exact List.mem_cons_of_mem _ (ih h)

theorem lookup_of_mem {d : List (Str × β)} {k : Str} {v : β} (hn : (Dict.keys d).Nodup)
    (h : (k, v) ∈ d) : lookup d k = some v := by
  induction d with
  | nil => simp at h
  | cons e d ih =>
    rw [lookup_cons]
    simp only [Dict.keys, List.map_cons, List.nodup_cons] at hn
    rcases List.mem_cons.1 h with h | h
    · subst h; simp
    · have : e.1 ≠ k := fun g => hn.1 (g ▸ List.mem_map.2 ⟨(k, v), h, rfl⟩)
      rw [if_neg this]
      exact ih hn.2 h

theorem keys_set (d : List (Str × β)) (k : Str) (v : β) :
    Dict.keys (Dict.set d k v) = if k ∈ Dict.keys d then Dict.keys d else Dict.keys d ++ [k] := by
  induction d with
  | nil => simp [Dict.set, Dict.keys]
  | cons e d ih =>
    unfold Dict.set
    by_cases h : e.1 = k
    · subst h; simp [Dict.keys]
    · simp only [if_neg h]
      have e1 : Dict.keys (e :: Dict.set d k v) = e.1 :: Dict.keys (Dict.set d k v) := rfl
      have e2 : Dict.keys (e :: d) = e.1 :: Dict.keys d := rfl
      rw [e1, e2, ih]
      by_cases g : k ∈ Dict.keys d
      · simp [g]
      · simp [g, Ne.symm h]

theorem mem_keys_set {d : List (Str × β)} {k k' : Str} {v : β} :
    k' ∈ Dict.keys (Dict.set d k v) ↔ k' = k ∨ k' ∈ Dict.keys d := by
  rw [keys_set]
  split <;> rename_i h
  · constructor
    · exact Or.inr
    · rintro (rfl | h') <;> assumption
  · simp [or_comm]

theorem nodup_set {d : List (Str × β)} {k : Str} {v : β} (h : (Dict.keys d).Nodup) :
    (Dict.keys (Dict.set d k v)).Nodup := by
  rw [keys_set]
  split <;> rename_i g
  · exact h
  · rw [List.nodup_append]
    refine ⟨h, by simp, ?_⟩
    intro a ha b hb
    rw [List.mem_singleton] at hb
    subst hb
    exact fun e => g (e ▸ ha)

theorem update_nil (d : List (Str × β)) : Dict.update d [] = d := rfl

theorem update_cons (d : List (Str × β)) (e : Str × β) (l : List (Str × β)) :
    Dict.update d (e :: l) = Dict.update (Dict.set d e.1 e.2) l := rfl

theorem nodup_update {d : List (Str × β)} (l : List (Str × β)) (h : (Dict.keys d).Nodup) :
    (Dict.keys (Dict.update d l)).Nodup := by
  induction l generalizing d with
  | nil => exact h
  | cons e l ih => rw [update_cons]; exact ih (nodup_set h)

theorem mem_keys_update {d l : List (Str × β)} {k : Str} :
    k ∈ Dict.keys (Dict.update d l) ↔ k ∈ Dict.keys d ∨ k ∈ Dict.keys l := by
  induction l generalizing d with
  | nil => simp [update_nil, Dict.keys]
  | cons e l ih =>
    rw [update_cons, ih, mem_keys_set]
    have : Dict.keys (e :: l) = e.1 :: Dict.keys l := rfl
    rw [this, List.mem_cons]
    constructor
    · rintro ((h | h) | h) <;> simp [h]
    · rintro (h | h | h) <;> simp [h]

/-- The last pair for a key counts. -/
theorem lookup_update (d l : List (Str × β)) (k : Str) :
    lookup (Dict.update d l) k = (lookup l.reverse k).or (lookup d k) := by
  induction l generalizing d with
  | nil => simp [update_nil]
  | cons e l ih =>
    rw [update_cons, ih, lookup_set, List.reverse_cons]
    have : ∀ m : List (Str × β), lookup (m ++ [e]) k =
        (lookup m k).or (if e.1 = k then some e.2 else none) := by
      intro m
      induction m with
      | nil => simp [lookup_cons]
      | cons f m ih =>
        rw [List.cons_append, lookup_cons, ih, lookup_cons]
        by_cases h : f.1 = k <;> simp [h]
    rw [this]
    cases lookup l.reverse k <;> by_cases h : e.1 = k <;> simp [h]

theorem lookup_reverse {l : List (Str × β)} (hn : (Dict.keys l).Nodup) (k : Str) :
    lookup l.reverse k = lookup l k := by
  have hr : (Dict.keys l.reverse).Nodup := by
    rw [Dict.keys, List.map_reverse]
    exact List.pairwise_reverse.2 (List.Pairwise.imp Ne.symm hn)
  cases h : lookup l k with
  | none =>
    rw [lookup_eq_none] at h ⊢
    simpa [Dict.keys] using h
  | some v => exact lookup_of_mem hr (by simpa using mem_of_lookup h)

theorem ofList_eq (l : List (Str × β)) : Dict.ofList l = Dict.update [] l := rfl

theorem mem_keys_ofList {l : List (Str × β)} {k : Str} :
    k ∈ Dict.keys (Dict.ofList l) ↔ k ∈ Dict.keys l := by
  rw [ofList_eq, mem_keys_update]; simp [Dict.keys]

theorem nodup_ofList (l : List (Str × β)) : (Dict.keys (Dict.ofList l)).Nodup := by
  rw [ofList_eq]; exact nodup_update l (by simp [Dict.keys])

theorem lookup_ofList (l : List (Str × β)) (k : Str) :
    lookup (Dict.ofList l) k = lookup l.reverse k := by
  rw [ofList_eq, lookup_update]; simp

theorem set_new {d : List (Str × β)} {k : Str} {v : β} (h : k ∉ Dict.keys d) :
    Dict.set d k v = d ++ [(k, v)] := by
  induction d with
  | nil => rfl
  | cons e d ih =>
    have hk : e.1 ≠ k ∧ k ∉ Dict.keys d := by
      simp only [Dict.keys, List.map_cons, List.mem_cons, not_or] at h
      exact ⟨fun g => h.1 g.symm, h.2⟩
    unfold Dict.set
    rw [if_neg hk.1, ih hk.2]; rfl

theorem update_nodup {d l : List (Str × β)} (h : (Dict.keys (d ++ l)).Nodup) :
    Dict.update d l = d ++ l := by
  induction l generalizing d with
  | nil => simp [update_nil]
  | cons e l ih =>
    rw [update_cons]
    have h' : (Dict.keys ((d ++ [e]) ++ l)).Nodup := by simpa using h
    have hk : e.1 ∉ Dict.keys d := by
      simp only [Dict.keys, List.map_append, List.map_cons, List.nodup_append] at h
      exact fun g => h.2.2 _ g _ (by simp) rfl
    rw [set_new hk, ih h']
    simp

theorem ofList_nodup {l : List (Str × β)} (h : (Dict.keys l).Nodup) : Dict.ofList l = l := by
  rw [ofList_eq, update_nodup (by simpa using h)]; rfl

end

end Verif
