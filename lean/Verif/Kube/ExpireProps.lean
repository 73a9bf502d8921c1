import Verif.Kube.Expire
import Verif.Api.Lemmas
/-
C93: records of ended clusters are removed when they are old enough, and no others.
-/
set_option linter.unusedSimpArgs false
set_option linter.unusedVariables false
namespace Verif.Kube

/-! ### Specification -/

/-- The object of a key after a history. -/
def recordAfter (ops : List EOp) (key : Str) : Option EObj :=
  ops.foldl (fun x op => match op with
    | .shown o => if o.ns ++ '.' :: o.name = key then some o else x
    | .gone ns name => if ns ++ '.' :: name = key then none else x
    | .reconcile _ _ => x) none

/-- An object that ended stays as it is, until it is seen to be deleted. -/
def EndIsFinal (ops : List EOp) : Prop :=
  ∀ pre o post, ops = pre ++ .shown o :: post → ∀ old, recordAfter pre (o.ns ++ '.' :: o.name) = some old →
    old.ended = true → o.ended = true ∧ o.completion = old.completion

/-- Whether a step is about the object of a key. -/
def EOp.about (key : Str) : EOp → Prop
  | .shown o => o.ns ++ '.' :: o.name = key
  | .gone ns name => ns ++ '.' :: name = key
  | .reconcile _ _ => False

/-! ### Lemmas -/

private theorem snoc_ind {α : Type} {P : List α → Prop} (h0 : P []) (h1 : ∀ l a, P l → P (l ++ [a]))
    (l : List α) : P l := by
  rw [← List.reverse_reverse l]
  induction l.reverse with
  | nil => exact h0
  | cons a m ih => rw [List.reverse_cons]; exact h1 _ _ ih

private theorem erun_snoc (ops : List EOp) (op : EOp) : Expire.run (ops ++ [op]) = (Expire.run ops).step op := by
  simp [Expire.run, List.foldl_append]

private theorem recordAfter_snoc (ops : List EOp) (op : EOp) (k : Str) :
    recordAfter (ops ++ [op]) k = (match op with
    | .shown o => if o.ns ++ '.' :: o.name = k then some o else recordAfter ops k
    | .gone ns name => if ns ++ '.' :: name = k then none else recordAfter ops k
    | .reconcile _ _ => recordAfter ops k) := by
  simp only [recordAfter, List.foldl_append, List.foldl_cons, List.foldl_nil]

private theorem reconcile_store (s : Expire) (key : Str) (now : Int) : (s.step (.reconcile key now)).store = s.store := by
  simp only [Expire.step]
  split
  · rfl
  · split <;> rfl

private theorem store_run (ops : List EOp) (k : Str) : (Expire.run ops).store k = recordAfter ops k := by
  induction ops using snoc_ind with
  | h0 => rfl
  | h1 l a ih =>
    rw [erun_snoc, recordAfter_snoc]
    cases a with
    | shown o =>
      change (if k = fullName o.ns o.name then some o else _) = (if o.ns ++ '.' :: o.name = k then some o else _)
      rw [ih]
      unfold fullName
      by_cases h : k = o.ns ++ '.' :: o.name
      · rw [if_pos h, if_pos h.symm]
      · rw [if_neg h, if_neg (fun x => h x.symm)]
    | gone ns name =>
      change (if k = fullName ns name then none else _) = (if ns ++ '.' :: name = k then none else _)
      rw [ih]
      unfold fullName
      by_cases h : k = ns ++ '.' :: name
      · rw [if_pos h, if_pos h.symm]
      · rw [if_neg h, if_neg (fun x => h x.symm)]
    | reconcile key now =>
      rw [reconcile_store]; exact ih

private theorem lookup_filter (d : List (Str × Int)) (k k' : Str) :
    lookup (d.filter (fun e => e.1 ≠ k)) k' = if k = k' then none else lookup d k' := by
  induction d with
  | nil => simp [lookup_nil]
  | cons e c ih =>
    by_cases h : e.1 = k
    · have he : (e :: c).filter (fun e => e.1 ≠ k) = c.filter (fun e => e.1 ≠ k) := by simp [h]
      rw [he, ih, lookup_cons]
      by_cases hk : k = k'
      · simp [hk]
      · simp [hk, h]
    · have he : (e :: c).filter (fun e => e.1 ≠ k) = e :: c.filter (fun e => e.1 ≠ k) := by simp [h]
      rw [he, lookup_cons, lookup_cons, ih]
      by_cases hk : k = k'
      · subst hk; simp [h]
      · simp [hk]

private theorem nodup_run (ops : List EOp) : (Dict.keys (Expire.run ops).stopped).Nodup := by
  induction ops using snoc_ind with
  | h0 => simp [Expire.run, Expire.init, Dict.keys]
  | h1 l a ih =>
    rw [erun_snoc]
    cases a with
    | shown o => exact ih
    | gone ns name => exact List.Nodup.sublist (List.Sublist.map _ List.filter_sublist) ih
    | reconcile key now =>
      simp only [Expire.step]
      split
      · exact ih
      · split
        · exact nodup_set ih
        · exact ih

private theorem mem_unpack {l : List (List Str)} {r : List (Str × Str)} (h : unpackAll l = some r) (ns name : Str) :
    (ns, name) ∈ r ↔ [ns, name] ∈ l := by
  induction l generalizing r with
  | nil => cases h; simp
  | cons p l ih =>
    match p, h with
    | [a, b], h =>
      change (unpackAll l).map _ = some r at h
      cases hl : unpackAll l with
      | none => rw [hl] at h; cases h
      | some r' =>
        rw [hl] at h
        cases h
        rw [List.mem_cons, List.mem_cons, ih hl]
        simp
    | [], h => cases h
    | [a], h => cases h
    | a :: b :: c :: d, h => cases h

private theorem unpack_isSome {l : List (List Str)} (h : ∀ p ∈ l, ∃ ns name, p = [ns, name]) :
    ∃ r, unpackAll l = some r := by
  induction l with
  | nil => exact ⟨_, rfl⟩
  | cons p l ih =>
    obtain ⟨ns, name, rfl⟩ := h p (by simp)
    obtain ⟨r, hr⟩ := ih (fun p hp => h p (List.mem_cons_of_mem _ hp))
    exact ⟨_, by unfold unpackAll; rw [hr]; rfl⟩

private theorem splitAll_two {s ns name : Str} (h : Api.splitAll '.' s = [ns, name]) : s = ns ++ '.' :: name := by
  have aux : ∀ (s : Str) (p : Str), Api.splitAll '.' s = [p] → s = p := by
    intro s
    induction s with
    | nil => intro p h; simp [Api.splitAll] at h; exact h.symm
    | cons x s ih =>
      intro p h
      unfold Api.splitAll at h
      cases hs : Api.splitAll '.' s with
      | nil => exact absurd hs (Api.splitAll_ne_nil _ _)
      | cons q qs =>
        rw [hs] at h
        dsimp only at h
        by_cases hx : x = '.'
        · rw [if_pos hx] at h; cases h
        · rw [if_neg hx] at h
          cases h
          rw [ih q hs]
  induction s generalizing ns with
  | nil => simp [Api.splitAll] at h
  | cons x s ih =>
    unfold Api.splitAll at h
    cases hs : Api.splitAll '.' s with
    | nil => exact absurd hs (Api.splitAll_ne_nil _ _)
    | cons q qs =>
      rw [hs] at h
      dsimp only at h
      by_cases hx : x = '.'
      · rw [if_pos hx] at h
        cases h
        rw [aux s name hs, hx]
        rfl
      · rw [if_neg hx] at h
        cases h
        rw [ih hs]
        rfl

private theorem swept {s : Expire} {maxAge : Rat} {now : Int} {ns name : Str} (hn : (Dict.keys s.stopped).Nodup)
    (h : (ns, name) ∈ s.sweep maxAge now) :
    ∃ t, lookup s.stopped (ns ++ '.' :: name) = some t ∧ (t : Rat) ≤ (now : Rat) - maxAge * 1000 := by
  unfold Expire.sweep at h
  cases hu : unpackAll (s.expired maxAge now) with
  | none => rw [hu] at h; simp at h
  | some r =>
    rw [hu] at h
    have := (mem_unpack hu ns name).mp h
    unfold Expire.expired at this
    obtain ⟨e, he, hs⟩ := List.mem_map.mp this
    rw [List.mem_filter] at he
    have hk := splitAll_two hs
    refine ⟨e.2, ?_, by simpa using he.2⟩
    rw [← hk]
    exact lookup_of_mem hn he.1

/-! ### C93 -/

private theorem stopped_run (ops : List EOp) (hf : EndIsFinal ops) (key : Str) (t : Int)
    (h : lookup (Expire.run ops).stopped key = some t) :
    ∃ o, recordAfter ops key = some o ∧ o.ended = true ∧
      (o.completion = some t ∨ o.completion = none ∧ EOp.reconcile key t ∈ ops) := by
  induction ops using snoc_ind with
  | h0 => simp [Expire.run, Expire.init, lookup_nil] at h
  | h1 l a ih =>
    have hf' : EndIsFinal l := by
      intro pre o post e old ho he
      refine hf pre o (post ++ [a]) ?_ old ho he
      rw [e]; simp
    have ih := ih hf'
    have keep : ∀ {o : EObj}, (o.completion = some t ∨ o.completion = none ∧ EOp.reconcile key t ∈ l) →
        (o.completion = some t ∨ o.completion = none ∧ EOp.reconcile key t ∈ l ++ [a]) := fun hx =>
      hx.imp id (fun hy => ⟨hy.1, List.mem_append_left _ hy.2⟩)
    rw [erun_snoc] at h
    rw [recordAfter_snoc]
    cases a with
    | shown o =>
      dsimp only
      obtain ⟨old, h1, h2, h3⟩ := ih h
      by_cases hk : o.ns ++ '.' :: o.name = key
      · rw [if_pos hk]
        obtain ⟨e1, e2⟩ := hf l o [] (by simp) old (by rw [hk]; exact h1) h2
        exact ⟨o, rfl, e1, by rw [e2]; exact keep h3⟩
      · rw [if_neg hk]
        exact ⟨old, h1, h2, keep h3⟩
    | gone ns name =>
      dsimp only
      replace h : lookup ((Expire.run l).stopped.filter (fun e => e.1 ≠ fullName ns name)) key = some t := h
      rw [lookup_filter] at h
      by_cases hk : fullName ns name = key
      · rw [if_pos hk] at h; cases h
      · rw [if_neg hk] at h
        rw [if_neg (show ¬ ns ++ '.' :: name = key from hk)]
        obtain ⟨old, h1, h2, h3⟩ := ih h
        exact ⟨old, h1, h2, keep h3⟩
    | reconcile key' now =>
      dsimp only
      simp only [Expire.step] at h
      have hst := store_run l key'
      cases hs : (Expire.run l).store key' with
      | none =>
        rw [hs] at h
        obtain ⟨old, h1, h2, h3⟩ := ih h
        exact ⟨old, h1, h2, keep h3⟩
      | some o =>
        rw [hs] at h hst
        dsimp only at h
        by_cases he : o.ended = true
        · rw [if_pos he] at h
          replace h : lookup (Dict.set (Expire.run l).stopped key' (o.completion.getD now)) key = some t := h
          rw [lookup_set] at h
          by_cases hk : key' = key
          · rw [if_pos hk] at h
            subst hk
            refine ⟨o, hst.symm, he, ?_⟩
            cases hc : o.completion with
            | none => rw [hc] at h; cases h; right; exact ⟨rfl, by simp⟩
            | some c => rw [hc] at h; cases h; left; rfl
          · rw [if_neg hk] at h
            obtain ⟨old, h1, h2, h3⟩ := ih h
            exact ⟨old, h1, h2, keep h3⟩
        · rw [if_neg he] at h
          obtain ⟨old, h1, h2, h3⟩ := ih h
          exact ⟨old, h1, h2, keep h3⟩

/-- C93: a record is removed only if its cluster ended, and did so at least the configured time before:
at its completion time, or, if the object has none, before the controller noticed it. -/
theorem C93_only_expired_partial (ops : List EOp) (hf : EndIsFinal ops) (maxAge : Rat) (now : Int) (ns name : Str)
    (h : (ns, name) ∈ (Expire.run ops).sweep maxAge now) :
    ∃ o, recordAfter ops (ns ++ '.' :: name) = some o ∧ o.ended = true ∧
      ∃ t, (o.completion = some t ∨ o.completion = none ∧ EOp.reconcile (ns ++ '.' :: name) t ∈ ops) ∧
        (t : Rat) + maxAge * 1000 ≤ now := by
  obtain ⟨t, h1, h2⟩ := swept (nodup_run ops) h
  obtain ⟨o, o1, o2, o3⟩ := stopped_run ops hf _ t h1
  exact ⟨o, o1, o2, t, o3, by grind⟩

/-- C93: every record that is old enough is removed, if the controller handled it since it changed and no
name has a dot. -/
theorem C93_removed_partial (pre post : List EOp) (ns name : Str) (seen now : Int) (maxAge : Rat) (o : EObj) (t : Int)
    (h1 : '.' ∉ ns) (h2 : '.' ∉ name)
    (hdots : ∀ o', EOp.shown o' ∈ pre ++ .reconcile (ns ++ '.' :: name) seen :: post → '.' ∉ o'.ns ∧ '.' ∉ o'.name)
    (ho : recordAfter pre (ns ++ '.' :: name) = some o) (he : o.ended = true) (hc : o.completion = some t)
    (hpost : ∀ op ∈ post, ¬ op.about (ns ++ '.' :: name)) (hold : (t : Rat) + maxAge * 1000 ≤ now) :
    (ns, name) ∈ (Expire.run (pre ++ .reconcile (ns ++ '.' :: name) seen :: post)).sweep maxAge now := by
  -- the entry is there, also after the rest of the history
  have entry : lookup (Expire.run (pre ++ .reconcile (ns ++ '.' :: name) seen :: post)).stopped (ns ++ '.' :: name) = some t ∧
      recordAfter (pre ++ .reconcile (ns ++ '.' :: name) seen :: post) (ns ++ '.' :: name) = some o := by
    clear hdots
    induction post using snoc_ind with
    | h0 =>
      rw [erun_snoc, recordAfter_snoc]
      refine ⟨?_, ho⟩
      have hst := store_run pre (ns ++ '.' :: name)
      rw [ho] at hst
      simp only [Expire.step]
      rw [hst]
      dsimp only
      rw [if_pos he]
      change lookup (Dict.set _ _ _) _ = _
      rw [lookup_set, if_pos rfl, hc]
      rfl
    | h1 l a ih =>
      obtain ⟨i1, i2⟩ := ih (fun op hop => hpost op (List.mem_append_left _ hop))
      have hna := hpost a (by simp)
      rw [show pre ++ EOp.reconcile (ns ++ '.' :: name) seen :: (l ++ [a]) =
        (pre ++ EOp.reconcile (ns ++ '.' :: name) seen :: l) ++ [a] by simp, erun_snoc, recordAfter_snoc]
      cases a with
      | shown o' => exact ⟨i1, by dsimp only; rw [if_neg (show ¬ o'.ns ++ '.' :: o'.name = _ from hna)]; exact i2⟩
      | gone ns' name' =>
        refine ⟨?_, by dsimp only; rw [if_neg (show ¬ ns' ++ '.' :: name' = _ from hna)]; exact i2⟩
        change lookup (List.filter _ _) _ = _
        rw [lookup_filter, if_neg (show ¬ fullName ns' name' = _ from hna)]; exact i1
      | reconcile key now =>
        refine ⟨?_, i2⟩
        have hst := store_run (pre ++ EOp.reconcile (ns ++ '.' :: name) seen :: l) key
        simp only [Expire.step]
        cases hs : (Expire.run (pre ++ EOp.reconcile (ns ++ '.' :: name) seen :: l)).store key with
        | none => exact i1
        | some o' =>
          dsimp only
          by_cases he' : o'.ended = true
          · rw [if_pos he']
            change lookup (Dict.set _ _ _) _ = _
            rw [lookup_set]
            by_cases hk : key = ns ++ '.' :: name
            · rw [if_pos hk]
              rw [hs, hk, i2] at hst
              cases hst
              rw [hc]; rfl
            · rw [if_neg hk]; exact i1
          · rw [if_neg he']; exact i1
  -- all keys are of two parts
  have parts : ∀ (ops : List EOp), (∀ o', EOp.shown o' ∈ ops → '.' ∉ o'.ns ∧ '.' ∉ o'.name) →
      (∀ k o', recordAfter ops k = some o' → ∃ a b, k = a ++ '.' :: b ∧ '.' ∉ a ∧ '.' ∉ b) ∧
      ∀ k ∈ Dict.keys (Expire.run ops).stopped, ∃ a b, k = a ++ '.' :: b ∧ '.' ∉ a ∧ '.' ∉ b := by
    intro ops
    induction ops using snoc_ind with
    | h0 => intro _; exact ⟨fun k o' h => (by cases h), fun k hk => (by simp [Expire.run, Expire.init, Dict.keys] at hk)⟩
    | h1 l a ih =>
      intro hd
      obtain ⟨i1, i2⟩ := ih (fun o' h => hd o' (List.mem_append_left _ h))
      rw [erun_snoc]
      constructor
      · intro k o' h
        rw [recordAfter_snoc] at h
        cases a with
        | shown o'' =>
          dsimp only at h
          by_cases hk : o''.ns ++ '.' :: o''.name = k
          · exact ⟨_, _, hk.symm, hd o'' (by simp)⟩
          · rw [if_neg hk] at h; exact i1 k o' h
        | gone ns' name' =>
          dsimp only at h
          by_cases hk : ns' ++ '.' :: name' = k
          · rw [if_pos hk] at h; cases h
          · rw [if_neg hk] at h; exact i1 k o' h
        | reconcile _ _ => exact i1 k o' h
      · intro k hk
        cases a with
        | shown o'' => exact i2 k hk
        | gone ns' name' =>
          refine i2 k ?_
          exact (List.Sublist.map _ List.filter_sublist).mem hk
        | reconcile key now =>
          simp only [Expire.step] at hk
          cases hs : (Expire.run l).store key with
          | none => rw [hs] at hk; exact i2 k hk
          | some o' =>
            rw [hs] at hk
            dsimp only at hk
            by_cases he' : o'.ended = true
            · rw [if_pos he'] at hk
              replace hk : k ∈ Dict.keys (Dict.set _ _ _) := hk
              rw [mem_keys_set] at hk
              rcases hk with hk | hk
              · first
                | (rw [hk]; exact i1 key o' (by rw [← store_run]; exact hs))
                | exact i2 k hk
              · first
                | (rw [hk]; exact i1 key o' (by rw [← store_run]; exact hs))
                | exact i2 k hk
            · rw [if_neg he'] at hk; exact i2 k hk
  have hp := (parts _ hdots).2
  revert hp entry
  generalize hS : Expire.run (pre ++ .reconcile (ns ++ '.' :: name) seen :: post) = s
  intro entry hp
  have hn : (Dict.keys s.stopped).Nodup := by rw [← hS]; exact nodup_run _
  obtain ⟨r, hr⟩ := unpack_isSome (l := s.expired maxAge now) (by
    intro p hpm
    obtain ⟨e, hme, rfl⟩ := List.mem_map.mp hpm
    obtain ⟨a, b, hk, ha, hb⟩ := hp e.1 (List.mem_map.mpr ⟨e, (List.mem_filter.mp hme).1, rfl⟩)
    exact ⟨a, b, by rw [hk, Api.splitAll_append _ _ _ ha, Api.splitAll_piece _ _ hb]⟩)
  unfold Expire.sweep
  rw [hr]
  refine (mem_unpack hr ns name).mpr ?_
  refine List.mem_map.mpr ⟨(ns ++ '.' :: name, t), List.mem_filter.mpr ⟨mem_of_lookup entry.1, ?_⟩, ?_⟩
  · simp only [decide_eq_true_eq]; grind
  · rw [Api.splitAll_append _ _ _ h1, Api.splitAll_piece _ _ h2]

/-- C93 in full, second half: a record that is old enough is removed, whatever the other records are. -/
def C93_removed : Prop :=
  ∀ (ops : List EOp) (o : EObj) (t seen now : Int) (maxAge : Rat), o.ended = true → o.completion = some t →
    (t : Rat) + maxAge * 1000 ≤ now → '.' ∉ o.ns → '.' ∉ o.name →
    (o.ns, o.name) ∈ (Expire.run (ops ++ [.shown o, .reconcile (o.ns ++ '.' :: o.name) seen])).sweep maxAge now

/-- An ended cluster for the examples. -/
def someEnded : EObj := { ns := "default".toList, name := "abc".toList, ended := true, completion := some 1000 }

/-- C93: once an ended cluster whose name has a dot (which Kubernetes allows) has expired, no record is
removed any more. -/
theorem C93_removed_violated : ¬ C93_removed := by
  intro h
  have := h [.shown { someEnded with name := "a.b".toList }, .reconcile "default.a.b".toList 0] someEnded 1000 0 10000 1
    rfl rfl (by grind) (by decide) (by decide)
  revert this
  decide +kernel

/-- C93 in full, first half: only records of ended clusters are removed. -/
def C93_only_ended : Prop :=
  ∀ (ops : List EOp) (maxAge : Rat) (now : Int) (ns name : Str), (ns, name) ∈ (Expire.run ops).sweep maxAge now →
    ∃ o, recordAfter ops (ns ++ '.' :: name) = some o ∧ o.ended = true

/-- C93: an object was deleted and made again under the same name while the controller did not watch, which
the informer shows as a change: the record of the running cluster is removed. -/
theorem C93_only_ended_violated : ¬ C93_only_ended := by
  intro h
  obtain ⟨o, h1, h2⟩ := h [.shown someEnded, .reconcile "default.abc".toList 0, .shown { someEnded with ended := false, completion := none },
    .reconcile "default.abc".toList 5] 1 10000 "default".toList "abc".toList (by decide +kernel)
  have e : recordAfter [.shown someEnded, .reconcile "default.abc".toList 0, .shown { someEnded with ended := false, completion := none },
    .reconcile "default.abc".toList 5] ("default".toList ++ '.' :: "abc".toList) =
      some { someEnded with ended := false, completion := none } := by decide +kernel
  rw [e] at h1
  cases h1
  cases h2

/-- A case that meets the hypotheses: of two ended clusters and a running one, one is old enough. -/
example : (Expire.run [.shown someEnded, .shown { someEnded with name := "new".toList, completion := some 9500 },
    .shown { someEnded with name := "run".toList, ended := false, completion := none },
    .reconcile "default.abc".toList 3, .reconcile "default.new".toList 4, .reconcile "default.run".toList 5]).sweep 1 10000 =
      [("default".toList, "abc".toList)] := by decide +kernel

end Verif.Kube
