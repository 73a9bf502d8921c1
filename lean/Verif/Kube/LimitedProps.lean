import Verif.Kube.Limited
import Verif.Utils.Props
/-! Property C184: the controller's calls of Kubernetes through its rate limited clients. -/
set_option linter.unusedSimpArgs false
set_option linter.unusedVariables false
namespace Verif.Kube.Limited
open Verif.Utils

variable {α : Type}

/-! ### Specification -/

/-- The call names a public method that the client has, and none of the four attributes of the wrapper
itself. -/
def Served (has : Side → List Char → Bool) (c : Call α) : Prop :=
  c.name ≠ "rate_limiter".toList ∧ c.name ≠ "client".toList ∧ c.name ≠ "_cache".toList ∧
  c.name ≠ "api_client".toList ∧ (∀ rest, c.name ≠ '_' :: rest) ∧ has c.side c.name = true

/-- The calls that were asked for, in order, with their times. The `i`-th has the number `i`. -/
def asks : List (Rat × Ev α) → List (Rat × Call α)
  | [] => []
  | (t, .ask c) :: course => (t, c) :: asks course
  | _ :: course => asks course

/-- The calls that went out after a course of a controller that was set up with these limits. -/
def outgoing (has : Side → List Char → Bool) (rate burst start : Rat) (course : List (Rat × Ev α)) :
    List (Sent α) :=
  match St.new α rate burst start with
  | some st => (st.run has course).sent
  | none => []

/-- The calls that sleep after a course. -/
def sleeping (has : Side → List Char → Bool) (rate burst start : Rat) (course : List (Rat × Ev α)) :
    List (Waiting α) :=
  match St.new α rate burst start with
  | some st => (st.run has course).waiting
  | none => []

/-! ### Lemmas -/

private theorem served_iff (has : Side → List Char → Bool) (c : Call α) :
    Served has c ↔ (c.name ∉ own ∧ c.name.head? ≠ some '_' ∧ has c.side c.name = true) := by
  unfold Served own
  constructor
  · rintro ⟨h1, h2, h3, h4, h5, h6⟩
    refine ⟨by simp only [List.mem_cons, List.not_mem_nil, or_false, not_or]; exact ⟨h1, h2, h3, h4⟩,
      ?_, h6⟩
    intro h
    cases hn : c.name with
    | nil => rw [hn] at h; cases h
    | cons x r =>
      rw [hn] at h
      injection h with h
      exact h5 r (by rw [hn, h])
  · rintro ⟨h1, h2, h3⟩
    simp only [List.mem_cons, List.not_mem_nil, or_false, not_or] at h1
    refine ⟨h1.1, h1.2.1, h1.2.2.1, h1.2.2.2, ?_, h3⟩
    intro r hr
    rw [hr] at h2
    exact h2 rfl

private def CacheOk (cache : Side → List (List Char × (Side × List Char))) : Prop :=
  ∀ s n m, lookup (cache s) n = some m → m = (s, n)

private theorem attr_served (has : Side → List Char → Bool)
    (cache : Side → List (List Char × (Side × List Char))) (hc : CacheOk cache) (c : Call α)
    (h : Served has c) :
    ∃ cache', CacheOk cache' ∧ attr has cache c.side c.name = (.limited (c.side, c.name), cache') := by
  rw [served_iff] at h
  unfold attr
  rw [if_neg h.1, if_pos h.2]
  cases hl : lookup (cache c.side) c.name with
  | some m => exact ⟨cache, hc, by dsimp only; rw [hc _ _ _ hl]⟩
  | none =>
    refine ⟨_, ?_, rfl⟩
    intro s n m hm
    dsimp only at hm
    split at hm
    · rename_i hs
      subst hs
      rw [lookup_cons] at hm
      split at hm
      · rename_i hn
        dsimp only at hn
        subst hn
        exact (Option.some.inj hm).symm
      · exact hc _ _ _ hm
    · exact hc _ _ _ hm

private theorem attr_unserved (has : Side → List Char → Bool)
    (cache : Side → List (List Char × (Side × List Char))) (c : Call α) (h : ¬ Served has c) :
    attr has cache c.side c.name = (.own, cache) ∨ attr has cache c.side c.name = (.missing, cache) := by
  rw [served_iff] at h
  unfold attr
  by_cases h1 : c.name ∈ own
  · left; rw [if_pos h1]
  · right; rw [if_neg h1, if_neg (fun h2 => h ⟨h1, h2⟩)]

private theorem step_unserved (has : Side → List Char → Bool) (st : St α) (t : Rat) (c : Call α)
    (h : ¬ Served has c) : st.step has t (.ask c) = { st with asked := st.asked + 1 } := by
  rcases attr_unserved has st.cache c h with h1 | h1 <;> simp only [St.step, h1]

private theorem delay_nonneg (l : Limiter) (t : Rat) (hr : 0 < l.rate) : 0 ≤ (l.delay t).1 := by
  unfold Limiter.delay
  dsimp only
  split
  · have h1 : 0 < -(l.left t) := by grind
    apply Rat.not_lt.1
    intro h2
    have h3 := Rat.mul_lt_mul_of_pos_right h2 hr
    rw [Rat.div_mul_cancel (by grind)] at h3
    grind
  · exact Rat.le_refl

/-- What holds of the clients after the calls of `past` have been asked for and the calls with the
numbers in `gone` have been cancelled. -/
private structure Inv (has : Side → List Char → Bool) (past : List (Rat × Call α)) (gone : List Nat)
    (st : St α) : Prop where
  rate : 0 < st.limiter.rate
  cache : CacheOk st.cache
  asked : st.asked = past.length
  waiting : ∀ w ∈ st.waiting, ∃ t, past[w.id]? = some (t, w.method) ∧ Served has w.method ∧ t ≤ w.due
  sent : ∀ e ∈ st.sent, ∃ t, past[e.id]? = some (t, e.method) ∧ Served has e.method ∧
    t ≤ e.due ∧ e.due ≤ e.time
  once : (st.sent.map (·.id) ++ st.waiting.map (·.id)).Nodup
  all : ∀ i t c, past[i]? = some (t, c) → Served has c →
    i ∈ st.sent.map (·.id) ∨ i ∈ st.waiting.map (·.id) ∨ i ∈ gone

private theorem getElem?_snoc {β : Type} {l : List β} {x y : β} {i : Nat} (h : l[i]? = some y) :
    (l ++ [x])[i]? = some y := by
  have h1 : i < l.length := by
    rcases Nat.lt_or_ge i l.length with h1 | h1
    · exact h1
    · rw [List.getElem?_eq_none h1] at h; cases h
  rw [List.getElem?_append_left h1, h]

private theorem lt_of_getElem? {β : Type} {l : List β} {y : β} {i : Nat} (h : l[i]? = some y) :
    i < l.length := by
  rcases Nat.lt_or_ge i l.length with h1 | h1
  · exact h1
  · rw [List.getElem?_eq_none h1] at h; cases h

private theorem snoc_cases {β : Type} {l : List β} {x y : β} {i : Nat}
    (h : (l ++ [x])[i]? = some y) : l[i]? = some y ∨ (i = l.length ∧ y = x) := by
  rcases Nat.lt_trichotomy i l.length with h1 | h1 | h1
  · left; rwa [List.getElem?_append_left h1] at h
  · right
    subst h1
    rw [List.getElem?_append_right (Nat.le_refl _), Nat.sub_self] at h
    exact ⟨rfl, (Option.some.inj h).symm⟩
  · have : (l ++ [x]).length ≤ i := by simp; omega
    rw [List.getElem?_eq_none this] at h; cases h

/-- The numbers of the calls whose tasks are cancelled in a course. -/
def cancels : List (Rat × Ev α) → List Nat
  | [] => []
  | (_, .cancel i) :: course => i :: cancels course
  | _ :: course => cancels course

private theorem inv_ids {has : Side → List Char → Bool} {past : List (Rat × Call α)} {gone : List Nat}
    {st : St α} (h : Inv has past gone st) :
    ∀ i ∈ st.sent.map (·.id) ++ st.waiting.map (·.id), i < past.length := by
  intro i hi
  rcases List.mem_append.1 hi with hi | hi
  · obtain ⟨e, he, rfl⟩ := List.mem_map.1 hi
    obtain ⟨t, h1, _⟩ := h.sent e he
    exact lt_of_getElem? h1
  · obtain ⟨e, he, rfl⟩ := List.mem_map.1 hi
    obtain ⟨t, h1, _⟩ := h.waiting e he
    exact lt_of_getElem? h1

private theorem inv_ask {has : Side → List Char → Bool} {past : List (Rat × Call α)} {gone : List Nat}
    {st : St α} (h : Inv has past gone st) (t : Rat) (c : Call α) :
    Inv has (past ++ [(t, c)]) gone (st.step has t (.ask c)) := by
  by_cases hs : Served has c
  · obtain ⟨cache', hc', ha⟩ := attr_served has st.cache h.cache c hs
    have hid := inv_ids h
    have hlast : (past ++ [(t, c)])[st.asked]? = some (t, c) := by
      rw [h.asked, List.getElem?_append_right (Nat.le_refl _), Nat.sub_self]; rfl
    have hd := delay_nonneg st.limiter t h.rate
    have hnew : st.asked ∉ st.sent.map (·.id) ++ st.waiting.map (·.id) := by
      intro hm; have := hid _ hm; have := h.asked; omega
    simp only [St.step, ha]
    split
    · refine ⟨h.rate, hc', by simp [h.asked], ?_, ?_, ?_, ?_⟩
      · intro w hw
        rcases List.mem_append.1 hw with hw | hw
        · obtain ⟨t0, h1, h2⟩ := h.waiting w hw
          exact ⟨t0, getElem?_snoc h1, h2⟩
        · rw [List.mem_singleton] at hw
          subst hw
          exact ⟨t, hlast, hs, by dsimp only; grind⟩
      · intro e he
        obtain ⟨t0, h1, h2⟩ := h.sent e he
        exact ⟨t0, getElem?_snoc h1, h2⟩
      · dsimp only
        rw [List.map_append, ← List.append_assoc, List.nodup_append]
        refine ⟨h.once, by simp, ?_⟩
        intro a ha b hb hab
        simp only [List.map_cons, List.map_nil, List.mem_singleton] at hb
        subst hb; subst hab
        exact hnew ha
      · intro i t' c' hi hs'
        dsimp only
        rw [List.map_append]
        rcases snoc_cases hi with hi | ⟨hi, _⟩
        · rcases h.all i t' c' hi hs' with h1 | h1 | h1
          · exact .inl h1
          · exact .inr (.inl (List.mem_append_left _ h1))
          · exact .inr (.inr h1)
        · exact .inr (.inl (List.mem_append_right _ (by simp [hi, h.asked])))
    · refine ⟨h.rate, hc', by simp [h.asked], ?_, ?_, ?_, ?_⟩
      · intro w hw
        obtain ⟨t0, h1, h2⟩ := h.waiting w hw
        exact ⟨t0, getElem?_snoc h1, h2⟩
      · intro e he
        rcases List.mem_append.1 he with he | he
        · obtain ⟨t0, h1, h2⟩ := h.sent e he
          exact ⟨t0, getElem?_snoc h1, h2⟩
        · rw [List.mem_singleton] at he
          subst he
          rename_i hz
          have hz := Classical.not_not.1 hz
          exact ⟨t, hlast, hs, by dsimp only; grind, by dsimp only; grind⟩
      · dsimp only
        rw [List.map_append, List.append_assoc, List.nodup_append]
        have ho := List.nodup_append.1 h.once
        refine ⟨ho.1, ?_, ?_⟩
        · simp only [List.map_cons, List.map_nil, List.singleton_append, List.nodup_cons]
          exact ⟨fun hm => hnew (List.mem_append_right _ hm), ho.2.1⟩
        · intro a ha b hb hab
          subst hab
          simp only [List.map_cons, List.map_nil, List.singleton_append, List.mem_cons] at hb
          rcases hb with rfl | hb
          · exact hnew (List.mem_append_left _ ha)
          · exact ho.2.2 a ha a hb rfl
      · intro i t' c' hi hs'
        dsimp only
        rw [List.map_append]
        rcases snoc_cases hi with hi | ⟨hi, _⟩
        · rcases h.all i t' c' hi hs' with h1 | h1 | h1
          · exact .inl (List.mem_append_left _ h1)
          · exact .inr (.inl h1)
          · exact .inr (.inr h1)
        · exact .inl (List.mem_append_right _ (by simp [hi, h.asked]))
  · rw [step_unserved has st t c hs]
    refine ⟨h.rate, h.cache, by simp [h.asked], ?_, ?_, h.once, ?_⟩
    · intro w hw
      obtain ⟨t0, h1, h2⟩ := h.waiting w hw
      exact ⟨t0, getElem?_snoc h1, h2⟩
    · intro e he
      obtain ⟨t0, h1, h2⟩ := h.sent e he
      exact ⟨t0, getElem?_snoc h1, h2⟩
    · intro i t' c' hi hs'
      rcases snoc_cases hi with hi | ⟨_, hi⟩
      · exact h.all i t' c' hi hs'
      · cases hi; exact absurd hs' hs

private theorem find_eraseP {β : Type} {l : List β} {p : β → Bool} {w : β} (h : l.find? p = some w) :
    ∃ a b, l = a ++ w :: b ∧ l.eraseP p = a ++ b ∧ p w = true := by
  induction l with
  | nil => cases h
  | cons x l ih =>
    rw [List.find?_cons] at h
    cases hx : p x with
    | true =>
      rw [hx] at h
      cases h
      exact ⟨[], l, rfl, by simp [List.eraseP_cons, hx], hx⟩
    | false =>
      rw [hx] at h
      obtain ⟨a, b, h1, h2, h3⟩ := ih h
      exact ⟨x :: a, b, by rw [h1]; rfl, by simp [List.eraseP_cons, hx, h2], h3⟩

private theorem inv_wake {has : Side → List Char → Bool} {past : List (Rat × Call α)} {gone : List Nat}
    {st : St α} (h : Inv has past gone st) (t : Rat) (i : Nat) :
    Inv has past gone (st.step has t (.wake i)) := by
  unfold St.step
  dsimp only
  cases hf : st.waiting.find? (fun w => decide (w.id = i)) with
  | none => exact h
  | some w =>
    dsimp only
    split
    · rename_i hdue
      obtain ⟨a, b, h1, h2, h3⟩ := find_eraseP hf
      rw [h2]
      have hsub : ∀ x ∈ a ++ b, x ∈ st.waiting := by
        intro x hx
        rw [h1]
        rcases List.mem_append.1 hx with hx | hx
        · exact List.mem_append_left _ hx
        · exact List.mem_append_right _ (List.mem_cons_of_mem _ hx)
      refine ⟨h.rate, h.cache, h.asked, fun x hx => h.waiting x (hsub x hx), ?_, ?_, ?_⟩
      · intro e he
        rcases List.mem_append.1 he with he | he
        · exact h.sent e he
        · rw [List.mem_singleton] at he
          subst he
          obtain ⟨t0, g1, g2, g3⟩ := h.waiting w (by rw [h1]; simp)
          exact ⟨t0, g1, g2, g3, hdue⟩
      · have ho := h.once
        rw [h1] at ho
        refine (List.Perm.nodup_iff ?_).1 ho
        simp only [List.map_append, List.map_cons, List.map_nil, List.append_assoc,
          List.singleton_append]
        exact List.Perm.append_left _ (List.perm_middle)
      · intro j t' c hj hs
        dsimp only
        rcases h.all j t' c hj hs with g | g | g
        · exact .inl (by rw [List.map_append]; exact List.mem_append_left _ g)
        · rw [h1] at g
          simp only [List.map_append, List.map_cons, List.map_nil, List.mem_append, List.mem_cons,
            List.not_mem_nil, or_false] at g ⊢
          rcases g with g | g | g
          · exact .inr (.inl (.inl g))
          · exact .inl (.inr g)
          · exact .inr (.inl (.inr g))
        · exact .inr (.inr g)
    · exact h

private theorem inv_cancel {has : Side → List Char → Bool} {past : List (Rat × Call α)}
    {gone : List Nat} {st : St α} (h : Inv has past gone st) (t : Rat) (i : Nat) :
    Inv has past (gone ++ [i]) (st.step has t (.cancel i)) := by
  unfold St.step
  dsimp only
  refine ⟨h.rate, h.cache, h.asked, fun w hw => h.waiting w (List.mem_filter.1 hw).1, h.sent, ?_, ?_⟩
  · refine List.Sublist.nodup ?_ h.once
    exact List.Sublist.append_left ((List.filter_sublist).map _) _
  · intro j t' c hj hs
    dsimp only
    rcases h.all j t' c hj hs with g | g | g
    · exact .inl g
    · obtain ⟨w, hw, rfl⟩ := List.mem_map.1 g
      by_cases hwi : w.id = i
      · exact .inr (.inr (by simp [hwi]))
      · exact .inr (.inl (List.mem_map.2 ⟨w, List.mem_filter.2 ⟨hw, by simp [hwi]⟩, rfl⟩))
    · exact .inr (.inr (List.mem_append_left _ g))

private theorem inv_run {has : Side → List Char → Bool} (course : List (Rat × Ev α))
    {past : List (Rat × Call α)} {gone : List Nat} {st : St α} (h : Inv has past gone st) :
    Inv has (past ++ asks course) (gone ++ cancels course) (st.run has course) := by
  induction course generalizing past gone st with
  | nil => simpa [asks, cancels, St.run] using h
  | cons x course ih =>
    obtain ⟨t, e⟩ := x
    cases e with
    | ask c => simpa [asks, cancels, St.run] using ih (inv_ask h t c)
    | wake i => simpa [asks, cancels, St.run] using ih (inv_wake h t i)
    | cancel i => simpa [asks, cancels, St.run] using ih (inv_cancel h t i)

private theorem inv_new (has : Side → List Char → Bool) {rate burst start : Rat} (hr : 0 < rate) :
    ∃ st, St.new α rate burst start = some st ∧ Inv has [] [] st ∧
      Limiter.new rate burst start = some st.limiter ∧ st.sent = [] ∧ st.waiting = [] ∧
      st.asked = 0 := by
  unfold St.new Limiter.new
  rw [if_neg (by grind)]
  refine ⟨_, rfl, ⟨hr, ?_, rfl, ?_, ?_, ?_, ?_⟩, rfl, rfl, rfl, rfl⟩
  · intro s n m h; simp at h
  · intro w h; simp at h
  · intro w h; simp at h
  · simp
  · intro i t c h; simp at h

private theorem inv_course (has : Side → List Char → Bool) {rate burst start : Rat} (hr : 0 < rate)
    (course : List (Rat × Ev α)) :
    ∃ st, Inv has (asks course) (cancels course) st ∧ outgoing has rate burst start course = st.sent ∧
      sleeping has rate burst start course = st.waiting := by
  obtain ⟨st, h1, h2, _⟩ := inv_new (α := α) has (burst := burst) (start := start) hr
  refine ⟨st.run has course, ?_, ?_, ?_⟩
  · simpa using inv_run course h2
  · unfold outgoing; rw [h1]
  · unfold sleeping; rw [h1]

/-! ### What goes out was asked for -/

/-- C184: what goes out to Kubernetes was asked for: the same client, the same method, the same
arguments, not before it was asked for, and each call once. -/
theorem C184_as_asked (has : Side → List Char → Bool) (rate burst start : Rat) (hr : 0 < rate)
    (course : List (Rat × Ev α)) :
    (∀ e ∈ outgoing has rate burst start course, ∃ t, (asks course)[e.id]? = some (t, e.method) ∧
      Served has e.method ∧ t ≤ e.time) ∧
    ((outgoing has rate burst start course).map (·.id)).Nodup := by
  obtain ⟨st, h, h1, _⟩ := inv_course has (burst := burst) (start := start) hr course
  rw [h1]
  refine ⟨fun e he => ?_, (List.nodup_append.1 h.once).1⟩
  obtain ⟨t, g1, g2, g3, g4⟩ := h.sent e he
  exact ⟨t, g1, g2, Rat.le_trans g3 g4⟩

/-- C184: a call of a public method that was asked for has gone out, or sleeps, or its task was
cancelled; none both has gone out and sleeps. -/
theorem C184_not_lost (has : Side → List Char → Bool) (rate burst start : Rat) (hr : 0 < rate)
    (course : List (Rat × Ev α)) :
    (∀ i t c, (asks course)[i]? = some (t, c) → Served has c →
      i ∈ (outgoing has rate burst start course).map (·.id) ∨
      i ∈ (sleeping has rate burst start course).map (·.id) ∨ i ∈ cancels course) ∧
    ∀ e ∈ outgoing has rate burst start course, ∀ w ∈ sleeping has rate burst start course,
      e.id ≠ w.id := by
  obtain ⟨st, h, h1, h2⟩ := inv_course has (burst := burst) (start := start) hr course
  rw [h1, h2]
  exact ⟨h.all, fun e he w hw => (List.nodup_append.1 h.once).2.2 _ (List.mem_map.2 ⟨e, he, rfl⟩) _
    (List.mem_map.2 ⟨w, hw, rfl⟩)⟩

private theorem run_append (has : Side → List Char → Bool) (st : St α) (a b : List (Rat × Ev α)) :
    st.run has (a ++ b) = (st.run has a).run has b := by
  induction a generalizing st with
  | nil => rfl
  | cons x a ih => exact ih _

/-- A call with the number `i` that is past, neither out nor sleeping, does not go out any more. -/
private theorem never (has : Side → List Char → Bool) (i : Nat) (course : List (Rat × Ev α)) (st : St α)
    (h1 : i < st.asked) (h2 : i ∉ st.sent.map (·.id)) (h3 : i ∉ st.waiting.map (·.id)) :
    i ∉ (st.run has course).sent.map (·.id) := by
  induction course generalizing st with
  | nil => exact h2
  | cons x course ih =>
    obtain ⟨t, e⟩ := x
    unfold St.run
    cases e with
    | ask c =>
      refine ih _ ?_ ?_ ?_
      · simp only [St.step]; split
        · split <;> (dsimp only; omega)
        · dsimp only; omega
      · simp only [St.step]; split
        · split
          · exact h2
          · simp only [List.map_append, List.map_cons, List.map_nil, List.mem_append, List.mem_singleton,
              not_or]
            exact ⟨h2, by omega⟩
        · exact h2
      · simp only [St.step]; split
        · split
          · simp only [List.map_append, List.map_cons, List.map_nil, List.mem_append, List.mem_singleton,
              not_or]
            exact ⟨h3, by omega⟩
          · exact h3
        · exact h3
    | wake j =>
      unfold St.step
      dsimp only
      cases hf : st.waiting.find? (fun w => decide (w.id = j)) with
      | none => exact ih _ h1 h2 h3
      | some w =>
        dsimp only
        split
        · obtain ⟨a, b, g1, g2, g3⟩ := find_eraseP hf
          refine ih _ h1 ?_ ?_
          · simp only [List.map_append, List.map_cons, List.map_nil, List.mem_append, List.mem_singleton,
              not_or]
            refine ⟨h2, ?_⟩
            rintro rfl
            exact h3 (List.mem_map.2 ⟨w, by rw [g1]; simp, rfl⟩)
          · dsimp only
            rw [g2]
            intro hm
            apply h3
            rw [g1]
            simp only [List.map_append, List.map_cons, List.mem_append, List.mem_cons] at hm ⊢
            rcases hm with hm | hm
            · exact .inl hm
            · exact .inr (.inr hm)
        · exact ih _ h1 h2 h3
    | cancel j =>
      unfold St.step
      dsimp only
      refine ih _ h1 h2 ?_
      dsimp only
      intro hm
      obtain ⟨w, hw, rfl⟩ := List.mem_map.1 hm
      exact h3 (List.mem_map.2 ⟨w, (List.mem_filter.1 hw).1, rfl⟩)

/-- C184: a call whose task is cancelled before it has gone out never goes out. -/
theorem C184_cancelled (has : Side → List Char → Bool) (rate burst start : Rat) (hr : 0 < rate)
    (before after : List (Rat × Ev α)) (t : Rat) (i : Nat) (hi : i < (asks before).length)
    (hn : i ∉ (outgoing has rate burst start before).map (·.id)) :
    i ∉ (outgoing has rate burst start (before ++ (t, .cancel i) :: after)).map (·.id) := by
  obtain ⟨st, h1, h2, _⟩ := inv_new (α := α) has (burst := burst) (start := start) hr
  unfold outgoing at hn ⊢
  rw [h1] at hn ⊢
  dsimp only at hn ⊢
  rw [run_append]
  have h3 := inv_run before h2
  refine never has i after _ ?_ hn ?_
  · show i < (st.run has before).asked
    rw [h3.asked]; simpa using hi
  · unfold St.step
    dsimp only
    intro hm
    obtain ⟨w, hw, hwi⟩ := List.mem_map.1 hm
    have := (List.mem_filter.1 hw).2
    simp at this
    exact this hwi

/-- C184: a call whose sleep is over goes out when it wakes up; a task does not wake up early. -/
theorem C184_wakes (has : Side → List Char → Bool) (rate burst start : Rat) (hr : 0 < rate)
    (course : List (Rat × Ev α)) (w : Waiting α) (hw : w ∈ sleeping has rate burst start course)
    (t : Rat) (ht : w.due ≤ t) :
    outgoing has rate burst start (course ++ [(t, .wake w.id)]) =
      outgoing has rate burst start course ++ [{ id := w.id, method := w.method, due := w.due, time := t }] := by
  obtain ⟨st, h1, h2, _⟩ := inv_new (α := α) has (burst := burst) (start := start) hr
  unfold outgoing
  unfold sleeping at hw
  rw [h1] at hw ⊢
  dsimp only at hw ⊢
  rw [run_append]
  have h3 := (inv_run course h2).once
  have h4 := (List.nodup_append.1 h3).2.1
  generalize st.run has course = st' at *
  have hf : st'.waiting.find? (fun x => decide (x.id = w.id)) = some w := by
    clear h3
    revert hw h4
    generalize st'.waiting = l
    intro hw h4
    induction l with
    | nil => cases hw
    | cons x l ih =>
      rw [List.find?_cons]
      rw [List.map_cons, List.nodup_cons] at h4
      rcases List.mem_cons.1 hw with rfl | hw
      · simp
      · have : x.id ≠ w.id := fun e => h4.1 (List.mem_map.2 ⟨w, hw, e.symm⟩)
        simp only [this, decide_false]
        exact ih hw h4.2
  simp only [St.run, St.step, hf, if_pos ht]

/-- C184: what is no public method of the client sends nothing, makes nothing sleep and takes no
token: the rest of the course goes as if it had not been asked for, apart from the numbering. -/
theorem C184_no_method (has : Side → List Char → Bool) (st : St α) (t : Rat) (c : Call α)
    (h : ¬ Served has c) :
    (st.step has t (.ask c)).sent = st.sent ∧ (st.step has t (.ask c)).waiting = st.waiting ∧
    (st.step has t (.ask c)).limiter = st.limiter := by
  rw [step_unserved has st t c h]
  exact ⟨rfl, rfl, rfl⟩

/-! ### The rate -/

open Classical in
/-- The times at which public methods were asked for. -/
noncomputable def times (has : Side → List Char → Bool) (course : List (Rat × Ev α)) : List Rat :=
  ((asks course).filter (fun x => decide (Served has x.2))).map (·.1)

private theorem filter_split {β : Type} (l : List β) (p : β → Bool) (f : β → Rat) :
    ((l.filter p).map f ++ (l.filter (fun x => !p x)).map f).Perm (l.map f) := by
  induction l with
  | nil => simp
  | cons x l ih =>
    cases hp : p x with
    | true => simpa [List.filter_cons, hp] using ih
    | false =>
      simp only [List.filter_cons, hp, Bool.false_eq_true, if_false, Bool.not_false, if_true,
        List.map_cons]
      exact List.perm_middle.trans (ih.cons _)

private theorem cache_step (has : Side → List Char → Bool) (st : St α) (t : Rat) (e : Ev α)
    (h : CacheOk st.cache) : CacheOk (st.step has t e).cache := by
  cases e with
  | ask c =>
    by_cases hs : Served has c
    · obtain ⟨cache', hc', ha⟩ := attr_served has st.cache h c hs
      simp only [St.step, ha]
      split <;> exact hc'
    · rw [step_unserved has st t c hs]; exact h
  | wake i =>
    unfold St.step; dsimp only
    split
    · split <;> exact h
    · exact h
  | cancel i => exact h

private theorem acquires_cons (l : Limiter) (t : Rat) (ts : List Rat) :
    l.acquires (t :: ts) = (t + (l.delay t).1) :: (l.delay t).2.acquires ts := rfl

private theorem late_zero (l : Limiter) (ts : List Rat) :
    List.zipWith (· + ·) (l.acquires ts) (List.replicate ts.length 0) = l.acquires ts := by
  induction ts generalizing l with
  | nil => simp [Limiter.acquires]
  | cons x ts ih =>
    simp only [Limiter.acquires, List.length_cons, List.replicate_succ, List.zipWith_cons_cons]
    rw [ih, Rat.add_zero]

/-- The times at which sleeps end, of the calls out, sleeping and cancelled, are those that the rate
limiter gave. -/
private theorem grants (has : Side → List Char → Bool) (course : List (Rat × Ev α)) (st : St α)
    (hc : CacheOk st.cache) :
    ∃ dropped, ((st.run has course).sent.map (·.due) ++ (st.run has course).waiting.map (·.due) ++
      dropped).Perm (st.sent.map (·.due) ++ st.waiting.map (·.due) ++
        st.limiter.acquires (times has course)) := by
  induction course generalizing st with
  | nil => exact ⟨[], by simp [St.run, times, asks, Limiter.acquires]⟩
  | cons x course ih =>
    obtain ⟨t, e⟩ := x
    obtain ⟨dropped, hd⟩ := ih (st.step has t e) (cache_step has st t e hc)
    unfold St.run
    cases e with
    | ask c =>
      refine ⟨dropped, hd.trans ?_⟩
      by_cases hs : Served has c
      · obtain ⟨cache', hc', ha⟩ := attr_served has st.cache hc c hs
        have : times has ((t, Ev.ask c) :: course) = t :: times has course := by
          simp [times, asks, List.filter_cons, hs]
        rw [this, acquires_cons]
        simp only [St.step, ha]
        split
        · simp only [List.map_append, List.map_cons, List.map_nil, List.append_assoc,
            List.singleton_append]
          exact List.Perm.refl _
        · simp only [List.map_append, List.map_cons, List.map_nil, List.append_assoc,
            List.singleton_append]
          refine List.Perm.append_left _ ?_
          rw [List.cons_append]
          exact List.perm_middle.symm
      · have : times has ((t, Ev.ask c) :: course) = times has course := by
          simp [times, asks, List.filter_cons, hs]
        rw [this, step_unserved has st t c hs]
    | wake i =>
      have : times has ((t, Ev.wake i) :: course) = times has course := by simp [times, asks]
      rw [this]
      refine ⟨dropped, hd.trans ?_⟩
      unfold St.step; dsimp only
      cases hf : st.waiting.find? (fun w => decide (w.id = i)) with
      | none => exact List.Perm.refl _
      | some w =>
        dsimp only
        split
        · obtain ⟨a, b, g1, g2, g3⟩ := find_eraseP hf
          dsimp only
          rw [g2, g1]
          simp only [List.map_append, List.map_cons, List.map_nil, List.append_assoc,
            List.singleton_append]
          refine List.Perm.append_left _ ?_
          simp only [List.cons_append, List.append_assoc]
          exact (List.perm_middle (l₁ := a.map (·.due))).symm
        · exact List.Perm.refl _
    | cancel i =>
      have : times has ((t, Ev.cancel i) :: course) = times has course := by simp [times, asks]
      rw [this]
      refine ⟨dropped ++ (st.waiting.filter (fun w => !(decide (w.id ≠ i)))).map (·.due), ?_⟩
      rw [← List.append_assoc]
      refine (hd.append_right _).trans ?_
      unfold St.step; dsimp only
      have hs := filter_split st.waiting (fun w => decide (w.id ≠ i)) (·.due)
      rw [List.append_assoc, List.append_assoc, List.append_assoc]
      refine List.Perm.append_left _ ?_
      refine (List.Perm.append_left _ List.perm_append_comm).trans ?_
      rw [← List.append_assoc]
      exact hs.append_right _

private theorem sent_sub (has : Side → List Char → Bool) {rate burst start : Rat} (hr : 0 < rate)
    (course : List (Rat × Ev α)) (l : Limiter) (hl : Limiter.new rate burst start = some l) :
    ∃ rest, ((outgoing has rate burst start course).map (·.due) ++ rest).Perm
      (l.acquires (times has course)) := by
  obtain ⟨st, h1, h2, h3, h4, h5, _⟩ := inv_new (α := α) has (burst := burst) (start := start) hr
  rw [hl] at h3
  cases h3
  obtain ⟨dropped, hd⟩ := grants has course st h2.cache
  rw [h4, h5] at hd
  unfold outgoing
  rw [h1]
  dsimp only
  rw [List.append_assoc] at hd
  exact ⟨_, by simpa using hd⟩

private theorem count_sub {rest : List Rat} {l : List Rat} {s : List (Sent α)}
    (h : (s.map (·.due) ++ rest).Perm l) (p : Sent α → Bool) (q : Rat → Bool)
    (hpq : ∀ e ∈ s, p e = true → q e.due = true) :
    ((s.filter p).length : Rat) ≤ ((l.filter q).length : Rat) := by
  refine Rat.natCast_le_natCast.2 ?_
  have h1 := (h.filter q).length_eq
  rw [List.filter_append, List.length_append] at h1
  have h2 : (s.filter p).length ≤ ((s.map (·.due)).filter q).length := by
    clear h1 h
    induction s with
    | nil => simp
    | cons e s ih =>
      have h3 := ih (fun e he => hpq e (by simp [he]))
      have h4 := hpq e (by simp)
      simp only [List.map_cons, List.filter_cons]
      by_cases hp : p e = true
      · rw [if_pos hp, if_pos (h4 hp)]; simpa using h3
      · rw [if_neg hp]
        split
        · simp only [List.length_cons]; omega
        · exact h3
  omega

/-- C184: whatever is asked for, whatever is cancelled and however late tasks wake up: up to any time
`t` after the controller was set up at most `burst + rate * t` calls have gone out, over both clients
together. -/
theorem C184_rate (has : Side → List Char → Bool) (rate burst start : Rat) (hr : 0 < rate)
    (hb : 1 ≤ burst) (course : List (Rat × Ev α)) (t : Rat) (ht : 0 ≤ t) :
    (((outgoing has rate burst start course).filter (fun e => decide (e.time ≤ start + t))).length : Rat)
      ≤ burst + rate * t := by
  obtain ⟨st, h, h1, _⟩ := inv_course has (burst := burst) (start := start) hr course
  obtain ⟨_, _, _, hl, _⟩ := inv_new (α := α) has (burst := burst) (start := start) hr
  obtain ⟨rest, hp⟩ := sent_sub has hr course _ hl
  have h2 := count_sub hp (fun e => decide (e.time ≤ start + t)) (fun g => decide (g ≤ start + t)) (by
    intro e he hq
    rw [h1] at he
    obtain ⟨_, _, _, _, g⟩ := h.sent e he
    have := of_decide_eq_true hq
    exact decide_eq_true (Rat.le_trans g this))
  have h3 := C45_since_start rate burst start _ hl hr hb (times has course)
    (List.replicate (times has course).length 0) (by
      intro d hd; rw [(List.mem_replicate.1 hd).2]; exact Rat.le_refl) t ht
  rw [late_zero] at h3
  exact Rat.le_trans h2 h3

/-- C184: if tasks wake up when their sleep is over, then in any window of length `t` at most
`burst + rate * t` calls go out. In one second these are `burst + rate`. -/
theorem C184_window_partial (has : Side → List Char → Bool) (rate burst start : Rat) (hr : 0 < rate)
    (hb : 1 ≤ burst) (course : List (Rat × Ev α))
    (hp : ∀ e ∈ outgoing has rate burst start course, e.time = e.due) (s t : Rat) (ht : 0 ≤ t) :
    (((outgoing has rate burst start course).filter
      (fun e => decide (s ≤ e.time ∧ e.time ≤ s + t))).length : Rat) ≤ burst + rate * t := by
  obtain ⟨_, _, _, hl, _⟩ := inv_new (α := α) has (burst := burst) (start := start) hr
  obtain ⟨rest, hq⟩ := sent_sub has hr course _ hl
  refine Rat.le_trans (count_sub hq _ (fun g => decide (s ≤ g ∧ g ≤ s + t)) ?_)
    (C45_window rate burst start _ hl hr hb (times has course) s t ht)
  intro e he h
  rw [hp e he] at h
  exact h

/-! ### No needless delay -/

open Classical in
private theorem undelayed (has : Side → List Char → Bool) (course : List (Rat × Ev α)) (st : St α)
    (hc : CacheOk st.cache) (hw : st.waiting = [])
    (h : st.limiter.acquires (times has course) = times has course) :
    (st.run has course).waiting = [] ∧
    (st.run has course).sent.map (fun e => (e.time, e.method)) =
      st.sent.map (fun e => (e.time, e.method)) ++
        (asks course).filter (fun x => decide (Served has x.2)) := by
  induction course generalizing st with
  | nil => exact ⟨hw, by simp [St.run, asks]⟩
  | cons x course ih =>
    obtain ⟨t, e⟩ := x
    unfold St.run
    cases e with
    | ask c =>
      by_cases hs : Served has c
      · obtain ⟨cache', hc', ha⟩ := attr_served has st.cache hc c hs
        have : times has ((t, Ev.ask c) :: course) = t :: times has course := by
          simp [times, asks, List.filter_cons, hs]
        rw [this, acquires_cons] at h
        injection h with h1 h2
        have hd : (st.limiter.delay t).1 = 0 := by grind
        have he : st.step has t (.ask c) = { st with
            limiter := (st.limiter.delay t).2, cache := cache', asked := st.asked + 1,
            sent := st.sent ++ [{ id := st.asked, method := c, due := t + (st.limiter.delay t).1, time := t }] } := by
          simp only [St.step, ha, hd, ne_eq, not_true_eq_false, if_false]
        rw [he]
        obtain ⟨g1, g2⟩ := ih { st with
            limiter := (st.limiter.delay t).2, cache := cache', asked := st.asked + 1,
            sent := st.sent ++ [{ id := st.asked, method := c, due := t + (st.limiter.delay t).1, time := t }] }
          hc' hw h2
        exact ⟨g1, by rw [g2]; simp [asks, List.filter_cons, hs]⟩
      · have : times has ((t, Ev.ask c) :: course) = times has course := by
          simp [times, asks, List.filter_cons, hs]
        rw [this] at h
        rw [step_unserved has st t c hs]
        obtain ⟨g1, g2⟩ := ih { st with asked := st.asked + 1 } hc hw h
        exact ⟨g1, by rw [g2]; simp [asks, List.filter_cons, hs]⟩
    | wake i =>
      have : times has ((t, Ev.wake i) :: course) = times has course := by simp [times, asks]
      rw [this] at h
      have he : st.step has t (.wake i) = st := by simp [St.step, hw]
      rw [he]
      exact ih st hc hw h
    | cancel i =>
      have : times has ((t, Ev.cancel i) :: course) = times has course := by simp [times, asks]
      rw [this] at h
      have he : st.step has t (.cancel i) = st := by
        unfold St.step; dsimp only; rw [hw]; simp only [List.filter_nil]; rw [← hw]
      rw [he]
      exact ih st hc hw h

open Classical in
/-- C184: as long as what is asked for keeps to the limits, every call goes out at the time it is asked
for, in that order. -/
theorem C184_undelayed (has : Side → List Char → Bool) (rate burst start : Rat) (hr : 0 < rate)
    (hb : 1 ≤ burst) (course : List (Rat × Ev α)) (hs : ∀ a ∈ times has course, start ≤ a)
    (hc : Conforms rate burst (times has course)) :
    sleeping has rate burst start course = [] ∧
    (outgoing has rate burst start course).map (fun e => (e.time, e.method)) =
      (asks course).filter (fun x => decide (Served has x.2)) := by
  obtain ⟨st, h1, h2, hl, h4, h5, _⟩ := inv_new (α := α) has (burst := burst) (start := start) hr
  have h := undelayed has course st h2.cache h5
    (C45_no_needless_delay rate burst start _ hl hr hb _ hs hc)
  unfold sleeping outgoing
  rw [h1]
  dsimp only
  rw [h4] at h
  simpa using h

/-! ### Idle time -/

/-- The full property: when nothing sleeps and nothing happened for as long as it takes to fill the
bucket, a call goes out at once. -/
def C184_idle_full : Prop :=
  ∀ (has : Side → List Char → Bool) (rate burst start : Rat) (course : List (Rat × Ev Nat)) (t : Rat)
    (c : Call Nat), 0 < rate → 1 ≤ burst → (start :: course.map (·.1)).Pairwise (· ≤ ·) →
    sleeping has rate burst start course = [] → start + burst / rate ≤ t →
    (∀ x ∈ course, x.1 + burst / rate ≤ t) → Served has c →
    ∃ e, outgoing has rate burst start (course ++ [(t, .ask c)]) =
      outgoing has rate burst start course ++ [e] ∧ e.method = c ∧ e.time = t

/-- How far the tokens went below zero is how long a call was made to sleep. -/
private structure Low (start : Rat) (past : List (Rat × Call α)) (gone : List Nat) (st : St α) :
    Prop where
  last : st.limiter.last = start ∨ ∃ x ∈ past, x.1 = st.limiter.last
  low : 0 ≤ st.limiter.tokens ∨ ∃ i t c, past[i]? = some (t, c) ∧
    (i ∈ gone ∨ (∃ w ∈ st.waiting, w.id = i ∧ w.due = t + -st.limiter.tokens / st.limiter.rate) ∨
      ∃ e ∈ st.sent, e.id = i ∧ e.due = t + -st.limiter.tokens / st.limiter.rate)

private theorem low_run (has : Side → List Char → Bool) (start : Rat) (course : List (Rat × Ev α))
    {past : List (Rat × Call α)} {gone : List Nat} {st : St α} (hi : Inv has past gone st)
    (h : Low start past gone st) :
    Low start (past ++ asks course) (gone ++ cancels course) (st.run has course) := by
  induction course generalizing past gone st with
  | nil => simpa [asks, cancels, St.run] using h
  | cons x course ih =>
    obtain ⟨t, e⟩ := x
    have hlast : ∀ c, st.limiter.last = start ∨ ∃ x ∈ past ++ [(t, c)], x.1 = st.limiter.last := by
      intro c
      rcases h.last with h1 | ⟨x, hx, h1⟩
      · exact .inl h1
      · exact .inr ⟨x, List.mem_append_left _ hx, h1⟩
    cases e with
    | ask c =>
      suffices hl : Low start (past ++ [(t, c)]) gone (st.step has t (.ask c)) by
        simpa [asks, cancels, St.run] using ih (inv_ask hi t c) hl
      by_cases hs : Served has c
      · obtain ⟨cache', hc', ha⟩ := attr_served has st.cache hi.cache c hs
        have hget : (past ++ [(t, c)])[st.asked]? = some (t, c) := by
          rw [hi.asked, List.getElem?_append_right (Nat.le_refl _), Nat.sub_self]; rfl
        simp only [St.step, ha]
        split
        · rename_i hd
          refine ⟨.inr ⟨(t, c), by simp, rfl⟩, ?_⟩
          dsimp only
          by_cases hl : st.limiter.left t < 0
          · right
            refine ⟨st.asked, t, c, hget, .inr (.inl ⟨_, List.mem_append_right _ (List.mem_singleton.2 rfl),
              rfl, ?_⟩)⟩
            simp only [Limiter.delay, if_pos hl]
          · left; simp only [Limiter.delay]; grind
        · rename_i hd
          refine ⟨.inr ⟨(t, c), by simp, rfl⟩, ?_⟩
          dsimp only
          by_cases hl : st.limiter.left t < 0
          · right
            refine ⟨st.asked, t, c, hget, .inr (.inr ⟨_, List.mem_append_right _ (List.mem_singleton.2 rfl),
              rfl, ?_⟩)⟩
            simp only [Limiter.delay, if_pos hl]
          · left; simp only [Limiter.delay]; grind
      · rw [step_unserved has st t c hs]
        refine ⟨hlast c, ?_⟩
        rcases h.low with h1 | ⟨i, t', c', h1, h2⟩
        · exact .inl h1
        · exact .inr ⟨i, t', c', getElem?_snoc h1, h2⟩
    | wake i =>
      suffices hl : Low start past gone (st.step has t (.wake i)) by
        simpa [asks, cancels, St.run] using ih (inv_wake hi t i) hl
      unfold St.step; dsimp only
      cases hf : st.waiting.find? (fun w => decide (w.id = i)) with
      | none => exact h
      | some w =>
        dsimp only
        split
        · obtain ⟨a, b, g1, g2, g3⟩ := find_eraseP hf
          refine ⟨h.last, ?_⟩
          dsimp only
          rw [g2]
          rcases h.low with h1 | ⟨j, t', c', h1, h2⟩
          · exact .inl h1
          · right
            refine ⟨j, t', c', h1, ?_⟩
            rcases h2 with h2 | ⟨v, hv, h2⟩ | ⟨v, hv, h2⟩
            · exact .inl h2
            · rw [g1] at hv
              rcases List.mem_append.1 hv with hv | hv
              · exact .inr (.inl ⟨v, List.mem_append_left _ hv, h2⟩)
              · rcases List.mem_cons.1 hv with rfl | hv
                · exact .inr (.inr ⟨_, List.mem_append_right _ (List.mem_singleton.2 rfl), h2⟩)
                · exact .inr (.inl ⟨v, List.mem_append_right _ hv, h2⟩)
            · exact .inr (.inr ⟨v, List.mem_append_left _ hv, h2⟩)
        · exact h
    | cancel i =>
      suffices hl : Low start past (gone ++ [i]) (st.step has t (.cancel i)) by
        simpa [asks, cancels, St.run] using ih (inv_cancel hi t i) hl
      unfold St.step; dsimp only
      refine ⟨h.last, ?_⟩
      dsimp only
      rcases h.low with h1 | ⟨j, t', c', h1, h2⟩
      · exact .inl h1
      · right
        refine ⟨j, t', c', h1, ?_⟩
        rcases h2 with h2 | ⟨v, hv, h2⟩ | h2
        · exact .inl (List.mem_append_left _ h2)
        · by_cases hvi : v.id = i
          · exact .inl (List.mem_append_right _ (by simp [← h2.1, hvi]))
          · exact .inr (.inl ⟨v, List.mem_filter.2 ⟨hv, by simp [hvi]⟩, h2⟩)
        · exact .inr (.inr h2)

private theorem limits_step (has : Side → List Char → Bool) (st : St α) (t : Rat) (e : Ev α) :
    (st.step has t e).limiter.rate = st.limiter.rate ∧
    (st.step has t e).limiter.burst = st.limiter.burst := by
  cases e with
  | ask c =>
    simp only [St.step]
    split
    · split <;> exact ⟨rfl, rfl⟩
    · exact ⟨rfl, rfl⟩
  | wake i =>
    unfold St.step; dsimp only
    split
    · split <;> exact ⟨rfl, rfl⟩
    · exact ⟨rfl, rfl⟩
  | cancel i => exact ⟨rfl, rfl⟩

private theorem limits_run (has : Side → List Char → Bool) (course : List (Rat × Ev α)) (st : St α) :
    (st.run has course).limiter.rate = st.limiter.rate ∧
    (st.run has course).limiter.burst = st.limiter.burst := by
  induction course generalizing st with
  | nil => exact ⟨rfl, rfl⟩
  | cons x course ih =>
    have h1 := ih (st.step has x.1 x.2)
    have h2 := limits_step has st x.1 x.2
    exact ⟨h1.1.trans h2.1, h1.2.trans h2.2⟩

private theorem asks_mem {course : List (Rat × Ev α)} {x : Rat × Call α} (h : x ∈ asks course) :
    ∃ y ∈ course, y.1 = x.1 := by
  induction course with
  | nil => cases h
  | cons y course ih =>
    obtain ⟨t, e⟩ := y
    cases e with
    | ask c =>
      simp only [asks, List.mem_cons] at h
      rcases h with rfl | h
      · exact ⟨_, List.mem_cons_self, rfl⟩
      · obtain ⟨y, hy, e⟩ := ih h; exact ⟨y, List.mem_cons_of_mem _ hy, e⟩
    | wake i => obtain ⟨y, hy, e⟩ := ih h; exact ⟨y, List.mem_cons_of_mem _ hy, e⟩
    | cancel i => obtain ⟨y, hy, e⟩ := ih h; exact ⟨y, List.mem_cons_of_mem _ hy, e⟩

/-- C184, what holds of `C184_idle_full`: it is so if no call was cancelled and none was made to sleep
for more than `(burst - 1) / rate`. -/
theorem C184_idle_partial (has : Side → List Char → Bool) (rate burst start : Rat) (hr : 0 < rate)
    (hb : 1 ≤ burst) (course : List (Rat × Ev α)) (t : Rat) (c : Call α)
    (hz : sleeping has rate burst start course = []) (hn : cancels course = [])
    (hd : ∀ e ∈ outgoing has rate burst start course, ∀ t0 c0, (asks course)[e.id]? = some (t0, c0) →
      e.due ≤ t0 + (burst - 1) / rate)
    (h0 : start + burst / rate ≤ t) (hi : ∀ x ∈ course, x.1 + burst / rate ≤ t) (hs : Served has c) :
    ∃ e, outgoing has rate burst start (course ++ [(t, .ask c)]) =
      outgoing has rate burst start course ++ [e] ∧ e.method = c ∧ e.time = t := by
  obtain ⟨st, h1, h2, hl, h4, h5, _⟩ := inv_new (α := α) has (burst := burst) (start := start) hr
  unfold sleeping at hz
  unfold outgoing at hd ⊢
  rw [h1] at hz hd ⊢
  dsimp only at hz hd ⊢
  unfold Limiter.new at hl
  rw [if_neg (by grind)] at hl
  have hl := Option.some.inj hl
  have hlow : Low start [] [] st := ⟨.inl (by rw [← hl]), .inl (by rw [← hl]; dsimp only; grind)⟩
  have hlow := low_run has start course h2 hlow
  have hinv := inv_run course h2
  have hlim := limits_run has course st
  rw [run_append]
  generalize st.run has course = st' at *
  obtain ⟨cache', hc', ha⟩ := attr_served has st'.cache hinv.cache c hs
  rw [hn] at hlow
  have hR : st'.limiter.rate = rate := by rw [hlim.1, ← hl]
  have hB : st'.limiter.burst = burst := by rw [hlim.2, ← hl]
  have hrr : rate ≠ 0 := by grind
  have hle : st'.limiter.last + burst / rate ≤ t := by
    rcases hlow.last with h | ⟨x, hx, h⟩
    · rw [h]; exact h0
    · obtain ⟨y, hy, e⟩ := asks_mem (by simpa using hx)
      rw [← h, ← e]; exact hi y hy
  have htok : 1 - burst ≤ st'.limiter.tokens := by
    rcases hlow.low with h | ⟨i, t0, c0, g1, g2⟩
    · grind
    · rw [hz] at g2
      rcases g2 with g2 | ⟨w, hw, _⟩ | ⟨e, he, g2, g3⟩
      · simp at g2
      · cases hw
      · subst g2
        have := hd e he t0 c0 (by simpa using g1)
        rw [g3, hR] at this
        have h6 : -st'.limiter.tokens / rate ≤ (burst - 1) / rate := by grind
        have h7 := Rat.mul_le_mul_of_nonneg_right h6 (Rat.le_of_lt hr)
        rw [Rat.div_mul_cancel hrr, Rat.div_mul_cancel hrr] at h7
        grind
  have hleft : ¬ st'.limiter.left t < 0 := by
    unfold Limiter.left
    rw [hR, hB]
    have : minQ (t - st'.limiter.last) (burst / rate) = burst / rate := by
      unfold minQ; split <;> grind
    rw [this, Rat.div_mul_cancel hrr]
    unfold minQ; split <;> grind
  have hdel : (st'.limiter.delay t).1 = 0 := by unfold Limiter.delay; dsimp only; rw [if_neg hleft]
  refine ⟨{ id := st'.asked, method := c, due := t + (st'.limiter.delay t).1, time := t }, ?_, rfl, rfl⟩
  simp only [St.run, St.step, ha, hdel, ne_eq, not_true_eq_false, if_false]

/-! ### Witnesses -/

/-- Clients with one method each. -/
private def some_methods (s : Side) (n : List Char) : Bool :=
  match s with
  | .core => n == "pod".toList
  | .custom => n == "patch".toList

private def pod (n : Nat) : Call Nat := ⟨.core, "pod".toList, n⟩
private def patch (n : Nat) : Call Nat := ⟨.custom, "patch".toList, n⟩

private theorem served_pod (n : Nat) : Served some_methods (pod n) := by
  rw [served_iff]
  show "pod".toList ∉ own ∧ "pod".toList.head? ≠ some '_' ∧ some_methods .core "pod".toList = true
  decide +kernel

/-- C184_idle_full does not hold: `_delay` credits no more than `burst / rate` seconds of idle time
(utils.py:96, 104), also if the tokens are far below zero. Here one call a second is allowed. Four calls
at once go out at 0, 1, 2 and 3 seconds. A call a thousand seconds later still has to sleep. -/
theorem C184_idle_violated : ¬ C184_idle_full := by
  intro h
  obtain ⟨e, h1, _⟩ := h some_methods 1 1 0
    [(0, .ask (pod 0)), (0, .ask (pod 1)), (0, .ask (pod 2)), (0, .ask (pod 3)),
      (1, .wake 1), (2, .wake 2), (3, .wake 3)] 1000 (pod 4)
    (by decide +kernel) (by decide +kernel) (by decide +kernel) (by decide +kernel) (by decide +kernel)
    (by decide +kernel) (served_pod 4)
  have h2 := congrArg List.length h1
  rw [List.length_append, List.length_singleton] at h2
  revert h2
  clear h1
  decide +kernel

/-- That call sleeps for three more seconds. -/
example : sleeping some_methods 1 1 0
    [(0, .ask (pod 0)), (0, .ask (pod 1)), (0, .ask (pod 2)), (0, .ask (pod 3)),
      (1, .wake 1), (2, .wake 2), (3, .wake 3), (1000, .ask (pod 4))] =
    [{ id := 4, method := pod 4, due := 1003 }] := by decide +kernel

/-- What the help of `k8s_api_rate_limit_burst` says (controller.py:248-254): no more than that many
calls go out in a second. -/
def C184_second_full : Prop :=
  ∀ (has : Side → List Char → Bool) (rate burst start : Rat) (course : List (Rat × Ev Nat)) (s : Rat),
    0 < rate → 1 ≤ burst → (start :: course.map (·.1)).Pairwise (· ≤ ·) →
    (∀ e ∈ outgoing has rate burst start course, e.time = e.due) →
    (((outgoing has rate burst start course).filter
      (fun e => decide (s ≤ e.time ∧ e.time ≤ s + 1))).length : Rat) ≤ burst

/-- C184_second_full does not hold: the bucket is filled again during the second. With two a second on
average and at most three in a second, five go out in the first second. `C184_window_partial` is what
holds. -/
theorem C184_second_violated : ¬ C184_second_full := by
  intro h
  have := h some_methods 2 3 0
    [(0, .ask (pod 0)), (0, .ask (patch 1)), (0, .ask (pod 2)), (1/2, .ask (patch 3)), (1, .ask (pod 4))] 0
    (by decide +kernel) (by decide +kernel) (by decide +kernel) (by decide +kernel)
  revert this
  decide +kernel

/-- Both clients share the limiter: two calls at once, the third sleeps half a second, is cancelled, and
the fourth still waits for its turn after it; a name with an underscore is no call. -/
example : outgoing some_methods 2 2 0
    [(0, .ask (pod 0)), (0, .ask (patch 1)), (0, .ask (pod 2)), (0, .ask (patch 3)),
      (0, .ask ⟨.core, "_pod".toList, 4⟩), (0, .ask ⟨.core, "patch".toList, 5⟩),
      (1/4, .cancel 2), (1/2, .wake 2), (1/2, .wake 3), (1, .wake 3)] =
    [⟨0, pod 0, 0, 0⟩, ⟨1, patch 1, 0, 0⟩, ⟨3, patch 3, 1, 1⟩] := by decide +kernel

/-- The hypotheses of `C184_window_partial` are met by that course. -/
example : ∀ e ∈ outgoing some_methods 2 2 0
    [(0, .ask (pod 0)), (0, .ask (patch 1)), (0, .ask (pod 2)), (1/2, .wake 2)], e.time = e.due := by
  decide +kernel

/-- The hypotheses of `C184_idle_partial` are met by a course in which a call had to sleep. -/
example : ∃ e, outgoing some_methods 2 2 0
      ([(0, .ask (pod 0)), (0, .ask (patch 1)), (0, .ask (pod 2)), (1/2, .wake 2)] ++ [(5, .ask (pod 9))]) =
    outgoing some_methods 2 2 0
      [(0, .ask (pod 0)), (0, .ask (patch 1)), (0, .ask (pod 2)), (1/2, .wake 2)] ++ [e] ∧
    e.method = pod 9 ∧ e.time = 5 := by
  refine C184_idle_partial some_methods 2 2 0 (by decide +kernel) (by decide +kernel) _ 5 (pod 9)
    (by decide +kernel) rfl ?_ (by decide +kernel) (by decide +kernel) (served_pod 9)
  have : outgoing some_methods 2 2 0
      [(0, .ask (pod 0)), (0, .ask (patch 1)), (0, .ask (pod 2)), (1/2, .wake 2)] =
      [⟨0, pod 0, 0, 0⟩, ⟨1, patch 1, 0, 0⟩, ⟨2, pod 2, 1/2, 1/2⟩] := by decide +kernel
  rw [this]
  intro e he t0 c0 h
  simp only [List.mem_cons, List.not_mem_nil, or_false] at he
  rcases he with rfl | rfl | rfl <;> (simp only [asks] at h; cases h; decide +kernel)

/-- The hypotheses of `C184_undelayed` are met: two calls at once and one a second later, at two a
second. -/
example : sleeping some_methods 2 2 0 [(0, .ask (pod 0)), (0, .ask (patch 1)), (1, .ask (pod 2))] = [] := by
  refine (C184_undelayed some_methods 2 2 0 (by decide +kernel) (by decide +kernel) _ ?_ ?_).1
  · intro a ha
    simp only [times, asks, List.mem_map, List.mem_filter] at ha
    obtain ⟨x, ⟨hx, _⟩, rfl⟩ := ha
    simp only [List.mem_cons, List.not_mem_nil, or_false] at hx
    rcases hx with rfl | rfl | rfl <;> decide +kernel
  · have h1 : Served some_methods (patch 1) := by rw [served_iff]; decide +kernel
    have : times some_methods [(0, .ask (pod 0)), (0, .ask (patch 1)), (1, .ask (pod 2))] = [0, 0, 1] := by
      simp [times, asks, served_pod, h1]
    rw [this]
    intro before a mid after h
    rcases before with _ | ⟨b, before⟩
    · injection h with h2 h3
      subst h2
      rcases mid with _ | ⟨m, mid⟩
      · decide +kernel
      · injection h3 with h4 h5
        subst h4
        rcases mid with _ | ⟨m, mid⟩
        · decide +kernel
        · injection h5 with h6 h7
          subst h6
          rcases mid with _ | ⟨m, mid⟩
          · decide +kernel
          · cases h7
    · injection h with h2 h3
      rcases before with _ | ⟨b, before⟩
      · injection h3 with h2 h3
        subst h2
        rcases mid with _ | ⟨m, mid⟩
        · decide +kernel
        · injection h3 with h4 h5
          subst h4
          rcases mid with _ | ⟨m, mid⟩
          · decide +kernel
          · cases h5
      · injection h3 with h2 h3
        rcases before with _ | ⟨b, before⟩
        · injection h3 with h2 h3
          subst h2
          rcases mid with _ | ⟨m, mid⟩
          · decide +kernel
          · cases h3
        · injection h3 with h2 h3
          cases before <;> cases h3

end Verif.Kube.Limited
