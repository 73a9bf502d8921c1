import Verif.Kube.Merge
/-! Property C48: extra pod configuration merges predictably. -/
namespace Verif.Kube

/-- The value at a path of keys. -/
def Obj.get : Obj → List Str → Option Obj
  | v, [] => some v
  | .dict _ d, k :: p => (lookup d k).bind (fun v => v.get p)
  | _, _ :: _ => none

/-- Every dictionary has each key once. -/
def Obj.Proper (v : Obj) : Prop := ∀ p i d, v.get p = some (.dict i d) → (Dict.keys d).Nodup

/-- Neither a dictionary nor a list. -/
def Obj.Scalar : Obj → Prop
  | .dict _ _ => False
  | .list _ _ => False
  | _ => True

mutual
/-- The identities of all lists and dictionaries in a document. -/
def Obj.ids : Obj → List Nat
  | .list i l => i :: idsL l
  | .dict i d => i :: idsD d
  | _ => []
/-- The identities in a list. -/
def idsL : List Obj → List Nat
  | [] => []
  | v :: l => v.ids ++ idsL l
/-- The identities in a dictionary. -/
def idsD : List (Str × Obj) → List Nat
  | [] => []
  | (_, v) :: d => v.ids ++ idsD d
end

/-- The document has a value at the path, or something other than a dictionary on the way to it. -/
def Obj.Decides : Obj → List Str → Prop
  | _, [] => True
  | .dict _ d, k :: p => ∃ v, lookup d k = some v ∧ v.Decides p
  | _, _ :: _ => True

private theorem get_nil (v : Obj) : v.get [] = some v := by cases v <;> rfl

private theorem get_cons (i : Nat) (d : List (Str × Obj)) (k : Str) (p : List Str) :
    (Obj.dict i d).get (k :: p) = (lookup d k).bind (fun v => v.get p) := rfl

private theorem get_none {v : Obj} (h : ∀ i d, v ≠ .dict i d) (k : Str) (p : List Str) :
    v.get (k :: p) = none := by
  cases v <;> first | rfl | exact absurd rfl (h _ _)

private theorem proper_sub {i : Nat} {d : List (Str × Obj)} (h : (Obj.dict i d).Proper) {k : Str}
    {v : Obj} (hk : lookup d k = some v) : v.Proper := by
  intro p j e he
  exact h (k :: p) j e (by rw [get_cons, hk]; exact he)

private theorem proper_keys {i : Nat} {d : List (Str × Obj)} (h : (Obj.dict i d).Proper) :
    (Dict.keys d).Nodup := h [] i d (get_nil _)

mutual
private theorem mergeDict_fresh (ida : Nat) (a : List (Str × Obj)) : (b : List (Str × Obj)) →
    (n : Nat) → n ≤ (mergeDict ida a b n).next ∧ ∀ w ∈ (mergeDict ida a b n).writes, n ≤ w
  | [], n => by simp [mergeDict]
  | (k, bv) :: b, n => by
    have h1 := mergeAt_fresh (lookup a k) bv (n + 1)
    have h2 := mergeLoop_fresh n (Dict.set a k (mergeAt (lookup a k) bv (n + 1)).val) b
      (mergeAt (lookup a k) bv (n + 1)).next
    unfold mergeDict
    dsimp only
    refine ⟨by omega, ?_⟩
    intro w hw
    rcases List.mem_append.1 hw with hw | hw
    · have := h1.2 w hw; omega
    · rcases List.mem_cons.1 hw with rfl | hw
      · exact Nat.le_refl _
      · rcases h2.2 w hw with h | h <;> omega
private theorem mergeLoop_fresh (self : Nat) (a : List (Str × Obj)) : (b : List (Str × Obj)) →
    (n : Nat) → n ≤ (mergeLoop self a b n).next ∧
      ∀ w ∈ (mergeLoop self a b n).writes, n ≤ w ∨ w = self
  | [], n => by simp [mergeLoop]
  | (k, bv) :: b, n => by
    have h1 := mergeAt_fresh (lookup a k) bv n
    have h2 := mergeLoop_fresh self (Dict.set a k (mergeAt (lookup a k) bv n).val) b
      (mergeAt (lookup a k) bv n).next
    unfold mergeLoop
    dsimp only
    refine ⟨by omega, ?_⟩
    intro w hw
    rcases List.mem_append.1 hw with hw | hw
    · exact Or.inl (h1.2 w hw)
    · rcases List.mem_cons.1 hw with rfl | hw
      · exact Or.inr rfl
      · rcases h2.2 w hw with h | h
        · exact Or.inl (by omega)
        · exact Or.inr h
private theorem mergeAt_fresh (av : Option Obj) : (bv : Obj) → (n : Nat) →
    n ≤ (mergeAt av bv n).next ∧ ∀ w ∈ (mergeAt av bv n).writes, n ≤ w
  | .dict ib b, n => by
    unfold mergeAt
    split
    · exact mergeDict_fresh _ _ b n
    · simp
  | .list ib b, n => by unfold mergeAt; split <;> simp
  | .null, n => by simp [mergeAt]
  | .bool _, n => by simp [mergeAt]
  | .num _, n => by simp [mergeAt]
  | .str _, n => by simp [mergeAt]
end

/-- One level of the loop. -/
private theorem loop_lookup (self : Nat) (k : Str) (b : List (Str × Obj)) :
    (Dict.keys b).Nodup → ∀ (a : List (Str × Obj)) (n : Nat), ∃ m,
      lookup (mergeLoop self a b n).val k = match lookup b k with
        | none => lookup a k
        | some bv => some (mergeAt (lookup a k) bv m).val := by
  induction b with
  | nil => intro _ a n; exact ⟨0, rfl⟩
  | cons e b ih =>
    obtain ⟨k', bv⟩ := e
    intro hn a n
    simp only [Dict.keys, List.map_cons, List.nodup_cons] at hn
    unfold mergeLoop
    dsimp only
    rw [lookup_cons]
    dsimp only
    by_cases hk : k' = k
    · subst hk
      obtain ⟨m, hm⟩ := ih hn.2 (Dict.set a k' (mergeAt (lookup a k') bv n).val)
        (mergeAt (lookup a k') bv n).next
      have : lookup b k' = none := lookup_eq_none.2 hn.1
      rw [this] at hm
      simp only [lookup_set, if_true] at hm
      exact ⟨n, by rw [hm]; simp⟩
    · obtain ⟨m, hm⟩ := ih hn.2 (Dict.set a k' (mergeAt (lookup a k') bv n).val)
        (mergeAt (lookup a k') bv n).next
      simp only [lookup_set, if_neg hk] at hm
      exact ⟨m, by rw [hm]; simp only [if_neg hk]⟩

/-- One level of the merge. -/
private theorem dict_lookup (ida : Nat) (a b : List (Str × Obj)) (n : Nat)
    (hn : (Dict.keys b).Nodup) : ∃ i d, (mergeDict ida a b n).val = .dict i d ∧ ∀ k, ∃ m,
      lookup d k = match lookup b k with
        | none => lookup a k
        | some bv => some (mergeAt (lookup a k) bv m).val := by
  cases b with
  | nil => exact ⟨ida, a, rfl, fun k => ⟨0, rfl⟩⟩
  | cons e b =>
    obtain ⟨k', bv⟩ := e
    refine ⟨n, _, rfl, fun k => ?_⟩
    have := loop_lookup n k ((k', bv) :: b) hn a (n + 1)
    exact this

/-- How a value that both documents have is merged, along a path. -/
private theorem at_path (p : List Str) : ∀ (av : Option Obj) (bv : Obj) (n : Nat), bv.Proper →
    -- the value of the override
    (∀ v, bv.get p = some v →
      (v.Scalar → (mergeAt av bv n).val.get p = some v) ∧
      (∀ ib lb, v = .list ib lb →
        (∀ ia la, av.bind (·.get p) = some (.list ia la) →
          ∃ i, (mergeAt av bv n).val.get p = some (.list i (la ++ lb))) ∧
        ((∀ ia la, av.bind (·.get p) ≠ some (.list ia la)) →
          (mergeAt av bv n).val.get p = some v)) ∧
      (∀ ib db, v = .dict ib db → (∀ ia da, av.bind (·.get p) ≠ some (.dict ia da)) →
        (mergeAt av bv n).val.get p = some v)) ∧
    -- the value of the base
    (¬ bv.Decides p → (mergeAt av bv n).val.get p = av.bind (·.get p)) ∧
    -- nothing else
    (∀ v, (mergeAt av bv n).val.get p = some v →
      (av.bind (·.get p)).isSome ∨ (bv.get p).isSome) := by
  induction p with
  | nil =>
    intro av bv n hp
    refine ⟨?_, ?_, ?_⟩
    · intro v hv
      rw [get_nil] at hv
      cases hv
      refine ⟨?_, ?_, ?_⟩
      · intro hs
        cases bv <;> first | rfl | exact hs.elim
      · rintro ib lb rfl
        constructor
        · intro ia la ha
          cases av with
          | none => cases ha
          | some x =>
            simp only [Option.bind_some, get_nil, Option.some.injEq] at ha
            subst ha
            exact ⟨n, rfl⟩
        · intro ha
          cases av with
          | none => rfl
          | some x =>
            cases x with
            | list ia la => exact absurd (by simp [get_nil]) (ha ia la)
            | _ => rfl
      · rintro ib db rfl ha
        cases av with
        | none => rfl
        | some x =>
          cases x with
          | dict ia da => exact absurd (by simp [get_nil]) (ha ia da)
          | _ => rfl
    · intro h
      exact absurd (by cases bv <;> trivial) h
    · intro v _
      exact Or.inr (by rw [get_nil]; rfl)
  | cons k p ih =>
    intro av bv n hp
    -- the override is not a dictionary: it replaces everything
    have nondict : (∀ i d, bv ≠ .dict i d) →
        bv.get (k :: p) = none ∧ bv.Decides (k :: p) ∧
        (mergeAt av bv n).val.get (k :: p) = none := by
      intro h
      refine ⟨get_none h k p, ?_, ?_⟩
      · cases bv <;> first | trivial | exact absurd rfl (h _ _)
      · cases bv with
        | dict i d => exact absurd rfl (h i d)
        | list i l =>
          unfold mergeAt
          split <;> rfl
        | _ => rfl
    by_cases hd : ∃ i d, bv = .dict i d
    · obtain ⟨ib, b, rfl⟩ := hd
      by_cases ha : ∃ i d, av = some (.dict i d)
      · obtain ⟨ia, a, rfl⟩ := ha
        obtain ⟨i, d, h1, h2⟩ := dict_lookup ia a b n (proper_keys hp)
        have hm : (mergeAt (some (.dict ia a)) (.dict ib b) n).val = .dict i d := by
          rw [← h1]; rfl
        rw [hm, get_cons]
        simp only [Option.bind_some, get_cons]
        obtain ⟨m, h3⟩ := h2 k
        cases hb : lookup b k with
        | none =>
          rw [hb] at h3
          dsimp only at h3
          rw [h3]
          refine ⟨?_, ?_, ?_⟩
          · intro v hv; cases hv
          · intro _; rfl
          · intro v hv; left; rw [hv]; rfl
        | some bv' =>
          rw [hb] at h3
          dsimp only at h3
          rw [h3]
          obtain ⟨i1, i2, i3⟩ := ih (lookup a k) bv' m (proper_sub hp hb)
          simp only [Option.bind_some]
          refine ⟨i1, ?_, i3⟩
          intro hnd
          exact i2 (fun h => hnd ⟨bv', hb, h⟩)
      · have hm : (mergeAt av (.dict ib b) n).val = .dict ib b := by
          cases av with
          | none => rfl
          | some x =>
            cases x with
            | dict i d => exact absurd ⟨i, d, rfl⟩ ha
            | _ => rfl
        have hn : av.bind (·.get (k :: p)) = none := by
          cases av with
          | none => rfl
          | some x =>
            exact get_none (fun i d e => ha ⟨i, d, by rw [e]⟩) k p
        rw [hm, hn]
        refine ⟨?_, ?_, ?_⟩
        · intro v hv
          rw [hv]
          refine ⟨fun _ => rfl, ?_, fun _ _ _ _ => rfl⟩
          rintro ib' lb rfl
          exact ⟨fun ia la h => (by cases h), fun _ => rfl⟩
        · intro hnd
          cases hb : lookup b k with
          | none => rw [get_cons, hb]; rfl
          | some bv' =>
            rw [get_cons, hb, Option.bind_some]
            cases hg : bv'.get p with
            | none => rfl
            | some v =>
              exfalso
              apply hnd
              refine ⟨bv', hb, ?_⟩
              clear hnd hb ih nondict hp hm
              induction p generalizing bv' with
              | nil => cases bv' <;> trivial
              | cons k' p' ih' =>
                cases bv' with
                | dict i' d' =>
                  rw [get_cons] at hg
                  cases hl : lookup d' k' with
                  | none => rw [hl] at hg; cases hg
                  | some w =>
                    rw [hl] at hg
                    refine ⟨w, hl, ih' ?_ w hg⟩
                    cases av with
                    | none => rfl
                    | some x =>
                      cases p' with
                      | nil =>
                        exact get_none (fun i d e => ha ⟨i, d, by rw [e]⟩) _ _
                      | cons _ _ => exact get_none (fun i d e => ha ⟨i, d, by rw [e]⟩) _ _
                | _ => trivial
        · intro v hv
          exact Or.inr (by rw [hv]; rfl)
    · obtain ⟨h1, h2, h3⟩ := nondict (fun i d e => hd ⟨i, d, e⟩)
      rw [h1, h3]
      refine ⟨fun v hv => (by cases hv), fun h => absurd h2 h, fun v hv => (by cases hv)⟩

/-- The result of the merge as a document. -/
def merged (ida : Nat) (a b : List (Str × Obj)) (next : Nat) : Obj := (mergeDict ida a b next).val

/-- C48: no list or dictionary of either input is changed. -/
theorem C48_inputs_unchanged (ida idb : Nat) (a b : List (Str × Obj)) (next : Nat)
    (h : ∀ i ∈ (Obj.dict ida a).ids ++ (Obj.dict idb b).ids, i < next) :
    ∀ i ∈ (Obj.dict ida a).ids ++ (Obj.dict idb b).ids, i ∉ (mergeDict ida a b next).writes := by
  intro i hi hw
  have h1 := h i hi
  have h2 := (mergeDict_fresh ida a b next).2 i hw
  omega

/-- C48: an empty override changes nothing. -/
theorem C48_empty (ida : Nat) (a : List (Str × Obj)) (next : Nat) :
    merged ida a [] next = .dict ida a := rfl

private theorem merged_at (ida idb : Nat) (a b : List (Str × Obj)) (next : Nat) :
    merged ida a b next = (mergeAt (some (.dict ida a)) (.dict idb b) next).val := rfl

/-- C48: the override wins where it has a value that is not a dictionary; two lists are
concatenated. -/
theorem C48_override (ida idb : Nat) (a b : List (Str × Obj)) (next : Nat)
    (hb : (Obj.dict idb b).Proper) (p : List Str) (v : Obj)
    (hv : (Obj.dict idb b).get p = some v) :
    (v.Scalar → (merged ida a b next).get p = some v) ∧
    (∀ ib lb, v = .list ib lb →
      (∀ ia la, (Obj.dict ida a).get p = some (.list ia la) →
        ∃ i, (merged ida a b next).get p = some (.list i (la ++ lb))) ∧
      ((∀ ia la, (Obj.dict ida a).get p ≠ some (.list ia la)) →
        (merged ida a b next).get p = some v)) ∧
    (∀ ib db, v = .dict ib db → (∀ ia da, (Obj.dict ida a).get p ≠ some (.dict ia da)) →
      (merged ida a b next).get p = some v) := by
  rw [merged_at ida idb]
  exact (at_path p (some (.dict ida a)) (.dict idb b) next hb).1 v hv

/-- C48: where the override has no value (and none other than a dictionary on the way), the base's
value is kept, or there is still none. -/
theorem C48_base (ida idb : Nat) (a b : List (Str × Obj)) (next : Nat)
    (hb : (Obj.dict idb b).Proper) (p : List Str) (h : ¬ (Obj.dict idb b).Decides p) :
    (merged ida a b next).get p = (Obj.dict ida a).get p := by
  rw [merged_at ida idb]
  exact (at_path p (some (.dict ida a)) (.dict idb b) next hb).2.1 h

/-- C48: the result has keys of the inputs only, and, at the top, all of them. -/
theorem C48_keys (ida idb : Nat) (a b : List (Str × Obj)) (next : Nat)
    (hb : (Obj.dict idb b).Proper) :
    (∀ p v, (merged ida a b next).get p = some v →
      ((Obj.dict ida a).get p).isSome ∨ ((Obj.dict idb b).get p).isSome) ∧
    (∀ k, ((Obj.dict ida a).get [k]).isSome ∨ ((Obj.dict idb b).get [k]).isSome →
      ((merged ida a b next).get [k]).isSome) := by
  constructor
  · intro p
    rw [merged_at ida idb]
    exact (at_path p (some (.dict ida a)) (.dict idb b) next hb).2.2
  · intro k hk
    obtain ⟨i, d, h1, h2⟩ := dict_lookup ida a b next (proper_keys hb)
    unfold merged
    rw [h1, get_cons]
    rw [get_cons, get_cons] at hk
    obtain ⟨m, h3⟩ := h2 k
    rw [h3]
    cases hl : lookup b k with
    | some bv => simp [get_nil]
    | none =>
      rw [hl] at hk
      simpa using hk

section
private def base : List (Str × Obj) :=
  [("a".toList, .dict 1 [("x".toList, .num (.int 1)), ("y".toList, .num (.int 2))]),
   ("l".toList, .list 2 [.null])]
private def extra : List (Str × Obj) :=
  [("a".toList, .dict 4 [("x".toList, .num (.int 7))]), ("l".toList, .list 5 [.bool true]),
   ("n".toList, .str "new".toList)]

/-- Nested keys are merged, lists concatenated, and only the two copies are changed. -/
example : (mergeDict 0 base extra 10).writes = [11, 10, 10, 10] ∧
    ((merged 0 base extra 10).get ["a".toList, "x".toList]) = some (.num (.int 7)) ∧
    ((merged 0 base extra 10).get ["a".toList, "y".toList]) = some (.num (.int 2)) ∧
    ((merged 0 base extra 10).get ["l".toList]) = some (.list 12 [.null, .bool true]) :=
  ⟨by decide, rfl, rfl, rfl⟩

example : ∀ i ∈ (Obj.dict 0 base).ids ++ (Obj.dict 3 extra).ids, i < 10 := by decide
example : ¬ (Obj.dict 3 extra).Decides ["a".toList, "y".toList] := by
  rintro ⟨v, h1, h2⟩
  cases h1
  obtain ⟨w, h3, _⟩ := h2
  cases h3

/-- The override of the example has each key once, at every level. -/
example : (Obj.dict 3 extra).Proper := by
  intro p i d h
  match p with
  | [] => cases h; decide
  | [k] =>
    rw [get_cons] at h
    cases hl : lookup extra k with
    | none => rw [hl] at h; cases h
    | some v =>
      rw [hl] at h
      have := mem_of_lookup hl
      simp only [extra, List.mem_cons, List.not_mem_nil, or_false, Prod.mk.injEq] at this
      rcases this with ⟨_, rfl⟩ | ⟨_, rfl⟩ | ⟨_, rfl⟩ <;> cases h
      decide
  | k :: k' :: q =>
    rw [get_cons] at h
    cases hl : lookup extra k with
    | none => rw [hl] at h; cases h
    | some v =>
      rw [hl] at h
      have := mem_of_lookup hl
      simp only [extra, List.mem_cons, List.not_mem_nil, or_false, Prod.mk.injEq] at this
      rcases this with ⟨_, rfl⟩ | ⟨_, rfl⟩ | ⟨_, rfl⟩
      · rw [Option.bind_some, get_cons] at h
        cases hl' : lookup [("x".toList, Obj.num (.int 7))] k' with
        | none => rw [hl'] at h; cases h
        | some w =>
          rw [hl'] at h
          have := mem_of_lookup hl'
          simp only [List.mem_cons, List.not_mem_nil, or_false, Prod.mk.injEq] at this
          obtain ⟨_, rfl⟩ := this
          cases q <;> cases h
      · cases h
      · cases h
end

/-! ### New objects -/

private theorem count_append' (i : Nat) (l m : List Obj) :
    (idsL (l ++ m)).count i = (idsL l).count i + (idsL m).count i := by
  induction l with
  | nil => simp [idsL]
  | cons v l ih => simp only [List.cons_append, idsL, List.count_append, ih]; omega

/-- The identities of what may be there. -/
private def idsO : Option Obj → List Nat
  | some v => v.ids
  | none => []

private theorem count_set (i : Nat) (a : List (Str × Obj)) (k : Str) (v : Obj) :
    (idsD (Dict.set a k v)).count i + (idsO (lookup a k)).count i = (idsD a).count i + v.ids.count i := by
  induction a with
  | nil => simp [Dict.set, idsD, idsO]
  | cons e a ih =>
    obtain ⟨k', v'⟩ := e
    rw [lookup_cons]
    unfold Dict.set
    by_cases h : k' = k
    · simp only [h, if_true, idsD, List.count_append, idsO]; omega
    · simp only [h, if_false, idsD, List.count_append]; omega

/-- How often identities occur in `r` made from `x` with new identities from `n` up to `m`. -/
private def Sep (x r : List Nat) (n m : Nat) : Prop :=
  n ≤ m ∧ ∀ i, (i < n → r.count i ≤ x.count i) ∧ (n ≤ i → i < m → r.count i ≤ x.count i + 1) ∧
    (m ≤ i → r.count i ≤ x.count i)

mutual
private theorem sep_dict (ida : Nat) (a : List (Str × Obj)) (idb : Nat) : (b : List (Str × Obj)) → (n : Nat) →
    Sep ((Obj.dict ida a).ids ++ (Obj.dict idb b).ids) (mergeDict ida a b n).val.ids n (mergeDict ida a b n).next
  | [], n => by
    refine ⟨by simp [mergeDict], fun i => ?_⟩
    simp only [mergeDict, List.count_append]
    omega
  | (k, bv) :: b, n => by
    have h1 := sep_at (lookup a k) bv (n + 1)
    have h2 := sep_loop n (Dict.set a k (mergeAt (lookup a k) bv (n + 1)).val) b
      (mergeAt (lookup a k) bv (n + 1)).next
    unfold mergeDict
    dsimp only
    refine ⟨by have := h1.1; have := h2.1; omega, fun i => ?_⟩
    have g1 := h1.2 i
    have g2 := h2.2 i
    have g3 := count_set i a k (mergeAt (lookup a k) bv (n + 1)).val
    have l1 := h1.1
    have l2 := h2.1
    change Sep (idsO (lookup a k) ++ bv.ids) _ _ _ at h1
    simp only [List.count_append, Obj.ids, List.count_cons, idsD] at g1 g2 ⊢
    change (i < n + 1 → _ ≤ (idsO (lookup a k)).count i + _) ∧ _ at g1
    refine ⟨fun hi => ?_, fun hi hm => ?_, fun hm => ?_⟩
    · have e : (n == i) = false := by simp; omega
      have := g1.1 (by omega)
      have := g2.1 (by omega)
      simp only [e, Bool.false_eq_true, if_false]
      omega
    · by_cases hn : n = i
      · subst hn
        have := g1.1 (by omega)
        have := g2.1 (by omega)
        simp only [beq_self_eq_true, if_true]
        omega
      · have e : (n == i) = false := by simp; omega
        simp only [e, Bool.false_eq_true, if_false]
        by_cases hx : i < (mergeAt (lookup a k) bv (n + 1)).next
        · have := g1.2.1 (by omega) hx
          have := g2.1 hx
          omega
        · have := g1.2.2 (by omega)
          have := g2.2.1 (by omega) hm
          omega
    · have e : (n == i) = false := by simp; omega
      simp only [e, Bool.false_eq_true, if_false]
      have := g1.2.2 (by omega)
      have := g2.2.2 (by omega)
      omega
private theorem sep_loop (self : Nat) (a : List (Str × Obj)) : (b : List (Str × Obj)) → (n : Nat) →
    Sep (idsD a ++ idsD b) (idsD (mergeLoop self a b n).val) n (mergeLoop self a b n).next
  | [], n => by
    refine ⟨by simp [mergeLoop], fun i => ?_⟩
    simp only [mergeLoop, List.count_append]
    omega
  | (k, bv) :: b, n => by
    have h1 := sep_at (lookup a k) bv n
    have h2 := sep_loop self (Dict.set a k (mergeAt (lookup a k) bv n).val) b (mergeAt (lookup a k) bv n).next
    unfold mergeLoop
    dsimp only
    refine ⟨by have := h1.1; have := h2.1; omega, fun i => ?_⟩
    have g1 := h1.2 i
    have g2 := h2.2 i
    have g3 := count_set i a k (mergeAt (lookup a k) bv n).val
    have l1 := h1.1
    have l2 := h2.1
    simp only [List.count_append, idsD] at g1 g2 ⊢
    refine ⟨fun hi => ?_, fun hi hm => ?_, fun hm => ?_⟩
    · have := g1.1 hi
      have := g2.1 (by omega)
      omega
    · by_cases hx : i < (mergeAt (lookup a k) bv n).next
      · have := g1.2.1 hi hx
        have := g2.1 hx
        omega
      · have := g1.2.2 (by omega)
        have := g2.2.1 (by omega) hm
        omega
    · have := g1.2.2 (by omega)
      have := g2.2.2 hm
      omega
private theorem sep_at (av : Option Obj) : (bv : Obj) → (n : Nat) →
    Sep (idsO av ++ bv.ids) (mergeAt av bv n).val.ids n (mergeAt av bv n).next
  | .dict ib b, n => by
    unfold mergeAt
    split
    · rename_i ia a
      exact sep_dict ia a ib b n
    · refine ⟨Nat.le_refl _, fun i => ?_⟩
      simp only [List.count_append]; omega
  | .list ib b, n => by
    unfold mergeAt
    split
    · rename_i ia a
      refine ⟨by simp, fun i => ?_⟩
      simp only [List.count_append, idsO, Obj.ids, List.count_cons, count_append']
      refine ⟨fun hi => ?_, fun hi hm => ?_, fun hm => ?_⟩
      · have e : (n == i) = false := by simp; omega
        simp only [e, Bool.false_eq_true, if_false]; omega
      · have e : (n == i) = true := by simp; omega
        simp only [e, if_true]; omega
      · have e : (n == i) = false := by simp; omega
        simp only [e, Bool.false_eq_true, if_false]; omega
    · refine ⟨Nat.le_refl _, fun i => ?_⟩
      simp only [List.count_append]; omega
  | .null, n => ⟨Nat.le_refl _, fun i => by simp [mergeAt, Obj.ids]⟩
  | .bool _, n => ⟨Nat.le_refl _, fun i => by simp [mergeAt, Obj.ids]⟩
  | .num _, n => ⟨Nat.le_refl _, fun i => by simp [mergeAt, Obj.ids]⟩
  | .str _, n => ⟨Nat.le_refl _, fun i => by simp [mergeAt, Obj.ids]⟩
end

/-- C48: no list or dictionary is twice in the result, if none is twice in the inputs: each that is made is a new
one. -/
theorem C48_separate (ida idb : Nat) (a b : List (Str × Obj)) (next : Nat)
    (h : ∀ i ∈ (Obj.dict ida a).ids ++ (Obj.dict idb b).ids, i < next)
    (hn : ((Obj.dict ida a).ids ++ (Obj.dict idb b).ids).Nodup) : (merged ida a b next).ids.Nodup := by
  have hs := sep_dict ida a idb b next
  rw [List.nodup_iff_count]
  rw [List.nodup_iff_count] at hn
  intro i
  have h1 := hn i
  have h2 := hs.2 i
  change (i < next → (merged ida a b next).ids.count i ≤ _) ∧
    (next ≤ i → _ → (merged ida a b next).ids.count i ≤ _) ∧ (_ → (merged ida a b next).ids.count i ≤ _) at h2
  have h3 : next ≤ i → ((Obj.dict ida a).ids ++ (Obj.dict idb b).ids).count i = 0 := by
    intro hi
    apply List.count_eq_zero.2
    intro hm
    have := h i hm
    omega
  generalize ((Obj.dict ida a).ids ++ (Obj.dict idb b).ids).count i = c at *
  generalize (merged ida a b next).ids.count i = d at *
  rcases Nat.lt_or_ge i next with hi | hi
  · have := h2.1 hi; omega
  · have := h3 hi
    rcases Nat.lt_or_ge i (mergeDict ida a b next).next with hm | hm
    · have := h2.2.1 hi hm; omega
    · have := h2.2.2 hm; omega

/-- Two lists are joined to two new ones. -/
example : (merged 0 [("a".toList, .list 1 [.null]), ("b".toList, .list 2 [])]
    [("a".toList, .list 4 []), ("b".toList, .list 5 [.dict 6 []])] 7).ids.Nodup :=
  C48_separate 0 3 _ _ 7 (by simp [Obj.ids, idsD, idsL]) (by simp [Obj.ids, idsD, idsL])

end Verif.Kube
