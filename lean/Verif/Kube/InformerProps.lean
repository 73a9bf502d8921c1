import Verif.Kube.Informer
/-! Property C49: the informer cache follows the event stream. -/
set_option linter.unusedSimpArgs false
namespace Verif.Kube
variable {ω : Type}

/-! ### Specification: the API server -/

/-- A change of an object on the API server. -/
inductive Change (ω : Type) where
  | set (o : KObj ω)
  | del (o : KObj ω)

/-- The object that a change is about. -/
def Change.obj : Change ω → KObj ω
  | .set o => o
  | .del o => o

/-- The state of the API server after some changes: the object of a namespace and name. -/
def world (log : List (Change ω)) (ns name : Str) : Option (KObj ω) :=
  log.foldl (fun w c => match c with
    | .set o => if o.ns = ns ∧ o.name = name then some o else w
    | .del o => if o.ns = ns ∧ o.name = name then none else w) none

/-- A list of the objects there are after some changes, each once. -/
structure Lists (log : List (Change ω)) (objs : List (KObj ω)) : Prop where
  sound : ∀ o ∈ objs, world log o.ns o.name = some o
  complete : ∀ ns name o, world log ns name = some o → o ∈ objs
  once : objs.Pairwise (fun o p => o.key ≠ p.key)

/-- Namespaces have no dots (Kubernetes requires a DNS label). -/
def Dotless (log : List (Change ω)) : Prop := ∀ c ∈ log, '.' ∉ c.obj.ns

/-- The inputs the API server may send, if `log` are all changes so far: a listing shows the state
after some number of changes, which it has as its version; a watch from a version delivers the next
change, with its version; it may end, fail, or report an error or something unknown at any time. -/
inductive Sends (log : List (Change ω)) (s : Informer ω) : Input ω → Prop
  | listed {objs v} : v ≤ log.length → Lists (log.take v) objs → Sends log s (.listed objs v)
  | failed : Sends log s .failed
  | set {o t} : log[s.version]? = some (.set o) → t = .added ∨ t = .modified →
      Sends log s (.event t o (some (s.version + 1)))
  | del {o} : log[s.version]? = some (.del o) →
      Sends log s (.event .deleted o (some (s.version + 1)))
  | error {o v} : Sends log s (.event .error o v)
  | other {o v} : v = none ∨ v = some s.version → Sends log s (.event .other o v)
  | timeout : Sends log s .timeout

/-- The states of an informer of an API server that changes meanwhile. -/
inductive Reach (order : List Str → List Str) : List (Change ω) → Informer ω → Prop
  | start : Reach order [] Informer.start
  | change {log s c} : Reach order log s → Reach order (log ++ [c]) s
  | step {log s i} : Reach order log s → Sends log s i → Reach order log (s.step order i).1

/-! ### Lemmas -/

private theorem split_dot {a a' b b' : Str} (h : '.' ∉ a) (h' : '.' ∉ a')
    (e : a ++ '.' :: b = a' ++ '.' :: b') : a = a' ∧ b = b' := by
  induction a generalizing a' with
  | nil =>
    cases a' with
    | nil => simpa using e
    | cons c l =>
      simp only [List.nil_append, List.cons_append, List.cons.injEq] at e
      exact absurd (by rw [← e.1]; simp) h'
  | cons c a ih =>
    cases a' with
    | nil =>
      simp only [List.nil_append, List.cons_append, List.cons.injEq] at e
      exact absurd (by rw [e.1]; simp) h
    | cons d l =>
      simp only [List.cons_append, List.cons.injEq] at e
      simp only [List.mem_cons, not_or] at h h'
      obtain ⟨h1, h2⟩ := ih h.2 h'.2 e.2
      exact ⟨by rw [e.1, h1], h2⟩

private theorem lookup_pop (c : List (Str × KObj ω)) (k k' : Str) :
    lookup (pop c k) k' = if k = k' then none else lookup c k' := by
  induction c with
  | nil => simp [pop, lookup_nil]
  | cons e c ih =>
    unfold pop at ih ⊢
    rw [List.filter_cons]
    by_cases h : e.1 = k
    · simp only [h, ne_eq, not_true_eq_false, decide_false, Bool.false_eq_true, if_false]
      rw [ih, lookup_cons]
      by_cases g : k = k'
      · simp [g]
      · simp [g, h]
    · simp only [ne_eq, h, not_false_eq_true, decide_true, if_true, lookup_cons, ih]
      by_cases g : k = k'
      · subst g; simp [h]
      · simp [g]

private theorem dropAll_lookup (c : List (Str × KObj ω)) (ks : List Str) (k : Str) :
    lookup (dropAll c ks).1 k = if k ∈ ks then none else lookup c k := by
  induction ks generalizing c with
  | nil => simp [dropAll]
  | cons a ks ih =>
    unfold dropAll
    cases hl : lookup c a with
    | none =>
      dsimp only
      rw [ih]
      by_cases h : k = a
      · subst h; simp [hl]
      · simp [h]
    | some o =>
      dsimp only
      rw [ih, lookup_pop]
      by_cases h : k = a
      · subst h; simp
      · simp [h, Ne.symm h]

private theorem putAll_lookup (l c : List (Str × KObj ω)) (hn : (Dict.keys l).Nodup) (k : Str) :
    lookup (putAll c l).1 k = match lookup l k with
      | some o => some o
      | none => lookup c k := by
  induction l generalizing c with
  | nil => rfl
  | cons e l ih =>
    obtain ⟨a, o⟩ := e
    simp only [Dict.keys, List.map_cons, List.nodup_cons] at hn
    unfold putAll
    dsimp only
    rw [ih _ hn.2, lookup_set, lookup_cons]
    by_cases h : a = k
    · subst h
      have : lookup l a = none := lookup_eq_none.2 hn.1
      simp [this]
    · simp [h]

private theorem objMap_nodup (objs : List (KObj ω)) : (Dict.keys (objMap objs)).Nodup :=
  nodup_ofList _

private theorem objMap_eq {objs : List (KObj ω)} (h : objs.Pairwise (fun o p => o.key ≠ p.key)) :
    objMap objs = objs.map (fun o => (o.key, o)) := by
  unfold objMap
  apply ofList_nodup
  simp only [Dict.keys, List.map_map]
  exact List.pairwise_map.2 h

private theorem handleInitial_lookup {order : List Str → List Str} (ho : ∀ l, (order l).Perm l)
    (c : List (Str × KObj ω)) (objs : List (KObj ω)) (k : Str) :
    lookup (handleInitial order c objs).1 k = lookup (objMap objs) k := by
  unfold handleInitial
  dsimp only
  rw [putAll_lookup _ _ (objMap_nodup objs)]
  cases hl : lookup (objMap objs) k with
  | some o => rfl
  | none =>
    dsimp only
    rw [dropAll_lookup]
    split
    · rfl
    · rename_i h
      rw [(ho _).mem_iff, List.mem_filter] at h
      cases hc : lookup c k with
      | none => rfl
      | some o =>
        exfalso
        apply h
        refine ⟨lookup_isSome.1 (by rw [hc]; rfl), ?_⟩
        simpa using lookup_eq_none.1 hl

private theorem world_snoc (log : List (Change ω)) (c : Change ω) (ns name : Str) :
    world (log ++ [c]) ns name = match c with
      | .set o => if o.ns = ns ∧ o.name = name then some o else world log ns name
      | .del o => if o.ns = ns ∧ o.name = name then none else world log ns name := by
  unfold world; rw [List.foldl_append]; rfl

private theorem world_names {log : List (Change ω)} {ns name : Str} {o : KObj ω}
    (h : world log ns name = some o) : o.ns = ns ∧ o.name = name ∧ .set o ∈ log := by
  rw [← List.reverse_reverse log] at h ⊢
  generalize log.reverse = r at h
  induction r with
  | nil => cases h
  | cons c r ih =>
    rw [List.reverse_cons] at h ⊢
    rw [world_snoc] at h
    have up : o.ns = ns ∧ o.name = name ∧ Change.set o ∈ r.reverse →
        o.ns = ns ∧ o.name = name ∧ Change.set o ∈ r.reverse ++ [c] :=
      fun ⟨h1, h2, h3⟩ => ⟨h1, h2, List.mem_append.2 (Or.inl h3)⟩
    cases c with
    | set p =>
      dsimp only at h
      split at h
      · rename_i hp
        cases h
        exact ⟨hp.1, hp.2, by simp⟩
      · exact up (ih h)
    | del p =>
      dsimp only at h
      split at h
      · cases h
      · exact up (ih h)

private theorem dotless_prefix {log : List (Change ω)} {c : Change ω} (h : Dotless (log ++ [c])) :
    Dotless log := fun d hd => h d (List.mem_append.2 (Or.inl hd))

/-- The cache of an informer that has seen the first `version` changes. -/
private def Follows (log : List (Change ω)) (s : Informer ω) : Prop :=
  s.version ≤ log.length ∧ ∀ ns name, '.' ∉ ns →
    lookup s.cache (ns ++ '.' :: name) = world (log.take s.version) ns name

private theorem take_succ {log : List (Change ω)} {n : Nat} {c : Change ω} (h : log[n]? = some c) :
    log.take (n + 1) = log.take n ++ [c] := by
  rw [List.take_add_one, h]; rfl

private theorem follows_step {order : List Str → List Str} (ho : ∀ l, (order l).Perm l)
    {log : List (Change ω)} {s : Informer ω} {i : Input ω} (hd : Dotless log) (h : Follows log s)
    (hs : Sends log s i) : Follows log (s.step order i).1 := by
  have lt : ∀ {n : Nat} {c : Change ω}, log[n]? = some c → n < log.length := fun hc =>
    (List.getElem?_eq_some_iff.1 hc).1
  cases hs with
  | @listed objs v hv hl =>
    unfold Informer.step
    cases hm : s.mode with
    | watching => exact h
    | listing =>
      refine ⟨hv, fun ns name hns => ?_⟩
      dsimp only
      rw [handleInitial_lookup ho, objMap_eq hl.once]
      cases hw : world (log.take v) ns name with
      | some o =>
        obtain ⟨h1, h2, _⟩ := world_names hw
        have hm := hl.complete ns name o hw
        apply lookup_of_mem
        · simp only [Dict.keys, List.map_map]
          exact List.pairwise_map.2 hl.once
        · refine List.mem_map.2 ⟨o, hm, ?_⟩
          unfold KObj.key
          rw [h1, h2]
      | none =>
        rw [lookup_eq_none]
        intro hmem
        simp only [Dict.keys, List.map_map, List.mem_map, Function.comp] at hmem
        obtain ⟨o, ho', hk⟩ := hmem
        have hw' := hl.sound o ho'
        have hdot : '.' ∉ o.ns :=
          hd _ (List.mem_of_mem_take (world_names hw').2.2)
        obtain ⟨e1, e2⟩ := split_dot hdot hns hk
        rw [e1, e2, hw] at hw'
        cases hw'
  | failed => exact h
  | timeout => exact h
  | @error o v =>
    unfold Informer.step
    cases hm : s.mode with
    | watching => simp only [if_true]; exact h
    | listing => exact h
  | @other o v hv =>
    unfold Informer.step
    cases hm : s.mode with
    | watching => rcases hv with rfl | rfl <;> exact h
    | listing => exact h
  | @set o t hc ht =>
    unfold Informer.step
    cases hm : s.mode with
    | listing => exact h
    | watching =>
      have hh : handle s.cache o t = (Dict.set s.cache o.key o, [.update o (lookup s.cache o.key)]) := by
        rcases ht with rfl | rfl <;> rfl
      have hne : t ≠ .error := by rcases ht with rfl | rfl <;> simp
      simp only [if_neg hne, hh]
      refine ⟨lt hc, fun ns name hns => ?_⟩
      have hdot : '.' ∉ o.ns := hd _ (List.mem_of_getElem? hc)
      simp only [Option.getD_some]
      rw [lookup_set, take_succ hc, world_snoc]
      dsimp only
      by_cases hk : o.key = ns ++ '.' :: name
      · rw [if_pos hk, if_pos (split_dot hdot hns hk)]
      · rw [if_neg hk, if_neg ?_, h.2 ns name hns]
        rintro ⟨e1, e2⟩
        exact hk (by unfold KObj.key; rw [e1, e2])
  | @del o hc =>
    unfold Informer.step
    cases hm : s.mode with
    | listing => exact h
    | watching =>
      have hne : EvType.deleted ≠ .error := by simp
      simp only [if_neg hne, handle]
      refine ⟨lt hc, fun ns name hns => ?_⟩
      have hdot : '.' ∉ o.ns := hd _ (List.mem_of_getElem? hc)
      simp only [Option.getD_some]
      rw [lookup_pop, take_succ hc, world_snoc]
      dsimp only
      by_cases hk : o.key = ns ++ '.' :: name
      · rw [if_pos hk, if_pos (split_dot hdot hns hk)]
      · rw [if_neg hk, if_neg ?_, h.2 ns name hns]
        rintro ⟨e1, e2⟩
        exact hk (by unfold KObj.key; rw [e1, e2])

/-! ### C49 -/

/-- C49: at any time the cache is the state of the API server after its first `version` changes: it
holds exactly the latest version of each object live at that point. -/
theorem C49_cache (order : List Str → List Str) (ho : ∀ l, (order l).Perm l)
    (log : List (Change ω)) (s : Informer ω) (h : Reach order log s) (hd : Dotless log) :
    s.version ≤ log.length ∧ ∀ ns name, '.' ∉ ns →
      lookup s.cache (ns ++ '.' :: name) = world (log.take s.version) ns name := by
  have : Follows log s := by
    induction h with
    | start => exact ⟨Nat.le_refl _, fun _ _ _ => rfl⟩
    | change h ih =>
      obtain ⟨i1, i2⟩ := ih (dotless_prefix hd)
      refine ⟨by simp; omega, fun ns name hns => ?_⟩
      rw [List.take_append_of_le_length i1]
      exact i2 ns name hns
    | step h hs ih => exact follows_step ho hd (ih hd) hs
  exact this

/-- C49: a watch event makes exactly one callback, for the changed object: an update with what the
cache had for it before, or a deletion; anything else makes none. -/
theorem C49_event_callback (order : List Str → List Str) (s : Informer ω) (o : KObj ω)
    (hm : s.mode = .watching) (v : Option Nat) :
    (s.step order (.event .added o v)).2 = [.update o (lookup s.cache o.key)] ∧
    (s.step order (.event .modified o v)).2 = [.update o (lookup s.cache o.key)] ∧
    (s.step order (.event .deleted o v)).2 = [.delete o] ∧
    (s.step order (.event .error o v)).2 = [] ∧ (s.step order (.event .other o v)).2 = [] ∧
    (s.step order .timeout).2 = [] ∧ (s.step order .failed).2 = [] := by
  simp [Informer.step, hm, handle]

private theorem dropAll_calls (c : List (Str × KObj ω)) (ks : List Str) (hn : ks.Nodup)
    (hk : ∀ k ∈ ks, k ∈ Dict.keys c) :
    (dropAll c ks).2.map some = ks.map (fun k => (lookup c k).map Call.delete) := by
  induction ks generalizing c with
  | nil => rfl
  | cons a ks ih =>
    rw [List.nodup_cons] at hn
    unfold dropAll
    have : (lookup c a).isSome := lookup_isSome.2 (hk a (by simp))
    cases hl : lookup c a with
    | none => rw [hl] at this; cases this
    | some o =>
      dsimp only
      have hsub : ∀ k ∈ ks, k ∈ Dict.keys (pop c a) := by
        intro k hkk
        have hne : a ≠ k := by rintro rfl; exact hn.1 hkk
        rw [← lookup_isSome, lookup_pop, if_neg hne, lookup_isSome]
        exact hk k (by simp [hkk])
      rw [List.map_cons, ih (pop c a) hn.2 hsub, List.map_cons, hl]
      congr 1
      apply List.map_congr_left
      intro k hkk
      have hne : a ≠ k := by rintro rfl; exact hn.1 hkk
      rw [lookup_pop, if_neg hne]

private theorem putAll_calls (l c : List (Str × KObj ω)) (hn : (Dict.keys l).Nodup) :
    (putAll c l).2 = l.map (fun e => Call.update e.2 (lookup c e.1)) := by
  induction l generalizing c with
  | nil => rfl
  | cons e l ih =>
    obtain ⟨a, o⟩ := e
    simp only [Dict.keys, List.map_cons, List.nodup_cons] at hn
    unfold putAll
    dsimp only
    rw [ih _ hn.2, List.map_cons]
    congr 1
    apply List.map_congr_left
    intro e he
    have hne : a ≠ e.1 := by
      rintro rfl
      exact hn.1 (List.mem_map.2 ⟨e, he, rfl⟩)
    rw [lookup_set, if_neg hne]

private theorem keys_pop (c : List (Str × KObj ω)) (k : Str) (h : (Dict.keys c).Nodup) :
    (Dict.keys (pop c k)).Nodup :=
  List.Nodup.sublist (List.Sublist.map _ List.filter_sublist) h

private theorem keys_dropAll (ks : List Str) (c : List (Str × KObj ω)) (h : (Dict.keys c).Nodup) :
    (Dict.keys (dropAll c ks).1).Nodup := by
  induction ks generalizing c with
  | nil => exact h
  | cons k ks ih =>
    unfold dropAll
    cases lookup c k with
    | none => exact ih c h
    | some o => exact ih _ (keys_pop c k h)

private theorem keys_putAll (l c : List (Str × KObj ω)) (h : (Dict.keys c).Nodup) :
    (Dict.keys (putAll c l).1).Nodup := by
  induction l generalizing c with
  | nil => exact h
  | cons e l ih => exact ih _ (nodup_set h)

private theorem reach_nodup {order : List Str → List Str} {log : List (Change ω)} {s : Informer ω}
    (h : Reach order log s) : (Dict.keys s.cache).Nodup := by
  induction h with
  | start => exact List.nodup_nil
  | change _ ih => exact ih
  | @step log s i _ _ ih =>
    unfold Informer.step
    cases i with
    | listed objs v =>
      cases s.mode with
      | listing => exact keys_putAll _ _ (keys_dropAll _ _ ih)
      | watching => exact ih
    | failed => exact ih
    | timeout => exact ih
    | event t o v =>
      cases s.mode with
      | listing => exact ih
      | watching =>
        dsimp only
        split
        · exact ih
        · cases t
          · exact nodup_set ih
          · exact nodup_set ih
          · exact keys_pop _ _ ih
          · exact ih
          · exact ih

/-- C49: a listing makes exactly one deletion callback for each cached object that is gone, with the
cached version, and exactly one update callback for each listed object, with what the cache had for
it before. -/
theorem C49_listing_callbacks (order : List Str → List Str) (ho : ∀ l, (order l).Perm l)
    (log : List (Change ω)) (s : Informer ω) (hr : Reach order log s) (hm : s.mode = .listing)
    (objs : List (KObj ω)) (h1 : objs.Pairwise (fun o p => o.key ≠ p.key)) (v : Nat) :
    ∃ gone : List (KObj ω), (s.step order (.listed objs v)).2 = gone.map Call.delete ++
        objs.map (fun o => Call.update o (lookup s.cache o.key)) ∧
      gone.Perm ((s.cache.filter (fun e => decide (∀ o ∈ objs, o.key ≠ e.1))).map (·.2)) := by
  have hc := reach_nodup hr
  have hkeys : Dict.keys (objMap objs) = objs.map KObj.key := by
    rw [objMap_eq h1]; simp [Dict.keys, Function.comp_def]
  generalize hdel : (Dict.keys s.cache).filter (fun k => decide (k ∉ Dict.keys (objMap objs))) = del
  have hdn : del.Nodup := by rw [← hdel]; exact hc.filter _
  have hperm := ho del
  have hsub : ∀ k ∈ order del, k ∈ Dict.keys s.cache := fun k hk => by
    have := hperm.mem_iff.1 hk
    rw [← hdel] at this
    exact (List.mem_filter.1 this).1
  have e1 := dropAll_calls s.cache (order del) (hperm.nodup_iff.2 hdn) hsub
  have e2 := putAll_calls (objMap objs) (dropAll s.cache (order del)).1 (objMap_nodup objs)
  have e3 : (s.step order (.listed objs v)).2 =
      (dropAll s.cache (order del)).2 ++ (putAll (dropAll s.cache (order del)).1 (objMap objs)).2 := by
    simp only [Informer.step, hm, handleInitial, hdel]
  refine ⟨(order del).filterMap (lookup s.cache), ?_, ?_⟩
  · rw [e3, e2]
    congr 1
    · apply (List.map_inj_right (f := some) (fun a b h => Option.some.inj h)).1
      rw [e1, List.map_map]
      clear e1 e2 e3 hperm hdn hdel
      generalize order del = ks at hsub
      induction ks with
      | nil => rfl
      | cons k ks ih =>
        have : (lookup s.cache k).isSome := lookup_isSome.2 (hsub k (by simp))
        cases hl : lookup s.cache k with
        | none => rw [hl] at this; cases this
        | some o =>
          simp only [List.map_cons, List.filterMap_cons, hl, Option.map_some, Function.comp]
          rw [ih (fun k hk => hsub k (by simp [hk]))]
    · rw [objMap_eq h1, List.map_map]
      apply List.map_congr_left
      intro o ho'
      simp only [Function.comp]
      rw [dropAll_lookup, if_neg]
      intro hmem
      have := hperm.mem_iff.1 hmem
      rw [← hdel, hkeys] at this
      have := (List.mem_filter.1 this).2
      simp only [decide_eq_true_eq] at this
      exact this (List.mem_map.2 ⟨o, ho', rfl⟩)
  · refine (hperm.filterMap _).trans ?_
    rw [← hdel, hkeys]
    have : ∀ c : List (Str × KObj ω), (Dict.keys c).Nodup →
        ((Dict.keys c).filter (fun k => decide (k ∉ objs.map KObj.key))).filterMap (lookup c) =
        (c.filter (fun e => decide (∀ o ∈ objs, o.key ≠ e.1))).map (·.2) := by
      intro c hc
      have gen : ∀ l : List (Str × KObj ω), (∀ e ∈ l, lookup c e.1 = some e.2) →
          ((Dict.keys l).filter (fun k => decide (k ∉ objs.map KObj.key))).filterMap (lookup c) =
          (l.filter (fun e => decide (∀ o ∈ objs, o.key ≠ e.1))).map (·.2) := by
        intro l hl
        induction l with
        | nil => rfl
        | cons e l ih =>
          have ih := ih (fun x hx => hl x (by simp [hx]))
          simp only [Dict.keys, List.map_cons, List.filter_cons] at ih ⊢
          by_cases hin : e.1 ∈ objs.map KObj.key
          · have h2 : ¬ ∀ o ∈ objs, o.key ≠ e.1 := by
              intro hall
              obtain ⟨o, ho1, ho2⟩ := List.mem_map.1 hin
              exact hall o ho1 ho2
            simp only [hin, not_true_eq_false, decide_false, Bool.false_eq_true, if_false, h2]
            exact ih
          · have h2 : ∀ o ∈ objs, o.key ≠ e.1 := fun o ho1 ho2 =>
              hin (List.mem_map.2 ⟨o, ho1, ho2⟩)
            simp only [hin, not_false_eq_true, decide_true, if_true, List.filterMap_cons,
              hl e (by simp), List.map_cons]
            rw [ih]
            rw [if_pos (decide_eq_true h2)]
            rfl
      exact gen c (fun e he => lookup_of_mem hc he)
    rw [this s.cache hc]

/-- An informer that has listed one object and seen it change: the hypotheses of `C49_cache` hold. -/
example :
    let a : KObj Nat := ⟨['n'], ['a'], 1⟩
    let a2 : KObj Nat := ⟨['n'], ['a'], 2⟩
    ∃ s, Reach id [.set a, .set a2] s ∧ Dotless [Change.set a, .set a2] ∧ s.version = 2 ∧
      s.cache = [(a.key, a2)] := by
  intro a a2
  have l : Lists [Change.set a] [a] := by
    refine ⟨?_, ?_, List.pairwise_singleton _ _⟩
    · intro o ho
      rw [List.mem_singleton.1 ho]; decide
    · intro ns name o h
      have := (world_names h).2.2
      simp only [List.mem_singleton, Change.set.injEq] at this
      simp [this]
  have r1 := Reach.step (order := id) (Reach.change (c := Change.set a) Reach.start)
    (Sends.listed (v := 1) (by simp) l)
  have r2 := Reach.step (Reach.change (c := Change.set a2) r1) (Sends.set (t := .modified) rfl (.inr rfl))
  refine ⟨_, r2, ?_, rfl, rfl⟩
  intro c hc
  simp only [List.mem_cons, List.not_mem_nil, or_false, List.nil_append, List.cons_append] at hc
  rcases hc with rfl | rfl <;> decide

/-- A listing, a modification, a missed deletion found by listing again. -/
example :
    let a : KObj Nat := ⟨['n'], ['a'], 1⟩
    let b : KObj Nat := ⟨['n'], ['b'], 1⟩
    let a2 : KObj Nat := ⟨['n'], ['a'], 2⟩
    let s1 := (Informer.start : Informer Nat).step id (.listed [a, b] 2)
    let s2 := s1.1.step id (.event .modified a2 (some 3))
    let s3 := s2.1.step id .failed
    let s4 := s3.1.step id (.listed [a2] 4)
    s1.2 = [.update a none, .update b none] ∧ s2.2 = [.update a2 (some a)] ∧
      s4.2 = [.delete b, .update a2 (some a2)] ∧ s4.1.cache = [(a.key, a2)] := by decide

end Verif.Kube
