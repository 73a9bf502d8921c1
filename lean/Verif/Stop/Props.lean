import Verif.Stop.Model
/-! Property C186: what becomes of tasks when a process of the gateway ends. -/
set_option linter.unusedSimpArgs false
set_option linter.unusedVariables false
namespace Verif.Stop

/-- How many tasks are created. -/
def spawns (a : List Ev) : Nat := a.count .spawn

/-! ### Lemmas -/

private theorem finish_get (ts : List Task) (i j : Nat) (f : Task → Task) :
    (ts.modify i f)[j]? = if i = j then ts[j]?.map f else ts[j]? := by
  rw [List.getElem?_modify]
  split
  · rfl
  · cases ts[j]? <;> rfl

private theorem step_length (ts : List Task) (e : Ev) :
    (step ts e).length = ts.length + spawns [e] := by
  cases e <;> simp [step, spawns]

private theorem fold_length (ts : List Task) (a : List Ev) :
    (a.foldl step ts).length = ts.length + spawns a := by
  induction a generalizing ts with
  | nil => simp [spawns]
  | cons e a ih =>
    rw [List.foldl_cons, ih, step_length]
    simp only [spawns, List.count_cons, List.count_nil]
    omega

/-- What a task that is there becomes in a step. -/
private theorem step_get {ts : List Task} {i : Nat} {t : Task} (h : ts[i]? = some t) (e : Ev) :
    ∃ t', (step ts e)[i]? = some t' ∧ t'.asked = t.asked ∧
      (∀ x, t.ended = some x → t'.ended = some x) ∧
      (t.ended = none → t'.ended = match e with | .finish j x => if j = i then some x else none | _ => none) := by
  have hi : i < ts.length := by
    rcases Nat.lt_or_ge i ts.length with h1 | h1
    · exact h1
    · rw [List.getElem?_eq_none h1] at h; cases h
  cases e with
  | spawn =>
    refine ⟨t, ?_, rfl, fun _ h => h, fun h => h⟩
    simp only [step]
    rw [List.getElem?_append_left hi, h]
  | signal => exact ⟨t, h, rfl, fun _ h => h, fun h => h⟩
  | finish j x =>
    simp only [step, finish_get]
    by_cases hj : j = i
    · subst hj
      simp only [if_true, h, Option.map_some]
      refine ⟨_, rfl, ?_, ?_, ?_⟩
      · unfold Task.finish; split <;> rfl
      · intro y hy; unfold Task.finish; rw [hy]; simp [hy]
      · intro hn; unfold Task.finish; rw [hn]; simp
    · simp only [hj, if_false]
      exact ⟨t, h, rfl, fun _ h => h, fun h => h⟩

private theorem fold_get {ts : List Task} {i : Nat} {t : Task} (h : ts[i]? = some t) (a : List Ev) :
    ∃ t', (a.foldl step ts)[i]? = some t' ∧ t'.asked = t.asked ∧
      (∀ x, t.ended = some x → t'.ended = some x) ∧
      (t.ended = none → ∀ x, t'.ended = some x → Ev.finish i x ∈ a) := by
  induction a generalizing ts t with
  | nil => exact ⟨t, h, rfl, fun _ h => h, fun h x hx => by rw [h] at hx; cases hx⟩
  | cons e a ih =>
    obtain ⟨t1, h1, h2, h3, h4⟩ := step_get h e
    obtain ⟨t2, g1, g2, g3, g4⟩ := ih h1
    refine ⟨t2, g1, g2.trans h2, fun x hx => g3 x (h3 x hx), ?_⟩
    intro hn x hx
    have h5 := h4 hn
    cases he : t1.ended with
    | none => exact List.mem_cons_of_mem _ (g4 he x hx)
    | some y =>
      have := g3 y he
      rw [hx] at this
      cases this
      rw [he] at h5
      cases e with
      | finish j z =>
        dsimp only at h5
        split at h5
        · rename_i hj
          subst hj
          cases h5
          exact List.mem_cons_self
        · cases h5
      | spawn => cases h5
      | signal => cases h5

/-- Tasks that are new are not asked to end. -/
private theorem fold_fresh (ts : List Task) (a : List Ev) (i : Nat) (t : Task)
    (h : (a.foldl step ts)[i]? = some t) (hn : ts[i]? = none) :
    t.asked = false ∧ ∀ x, t.ended = some x → Ev.finish i x ∈ a := by
  induction a generalizing ts with
  | nil => rw [List.foldl_nil, hn] at h; cases h
  | cons e a ih =>
    rw [List.foldl_cons] at h
    cases h1 : (step ts e)[i]? with
    | none =>
      obtain ⟨g1, g2⟩ := ih _ h h1
      exact ⟨g1, fun x hx => List.mem_cons_of_mem _ (g2 x hx)⟩
    | some t1 =>
      have hf : t1 = { asked := false, ended := none } := by
        cases e with
        | signal => simp only [step] at h1; rw [hn] at h1; cases h1
        | finish j x =>
          simp only [step, finish_get, hn] at h1
          split at h1 <;> cases h1
        | spawn =>
          simp only [step] at h1
          have hl : ts.length ≤ i := by
            rcases Nat.lt_or_ge i ts.length with hl | hl
            · rw [List.getElem?_eq_getElem hl] at hn; cases hn
            · exact hl
          rw [List.getElem?_append_right hl] at h1
          rcases hk : i - ts.length with _ | k
          · rw [hk] at h1; exact (Option.some.inj h1).symm
          · rw [hk] at h1; simp at h1
      obtain ⟨t2, g1, g2, g3, g4⟩ := fold_get h1 a
      rw [h] at g1
      cases g1
      refine ⟨by rw [g2, hf], fun x hx => List.mem_cons_of_mem _ (g4 (by rw [hf]) x hx)⟩

private theorem endOf_some {ts : List Task} {i : Nat} {x : End} :
    endOf ts i = some x ↔ ∃ t, ts[i]? = some t ∧ t.ended = some x := by
  unfold endOf
  cases ts[i]? <;> simp

/-- Until the main task ends, without a signal. -/
private theorem until_main (ts : List Task) (t : Task) (h0 : ts[0]? = some t) (hn : t.ended = none) (a b : List Ev)
    (e : End) (ha : ∀ x, Ev.finish 0 x ∉ a) (hs : Ev.signal ∉ a) :
    runUntil (fun ts => (endOf ts 0).isSome) ts (a ++ .finish 0 e :: b) =
      .complete ((a ++ [Ev.finish 0 e]).foldl step ts) b := by
  induction a generalizing ts t with
  | nil =>
    have hp : (endOf ts 0).isSome = false := by simp [endOf, h0, hn]
    obtain ⟨t', h1, _, _, h4⟩ := step_get h0 (.finish 0 e)
    have h5 := h4 hn
    simp only [if_true] at h5
    have hq : (endOf (step ts (.finish 0 e)) 0).isSome = true := by simp [endOf, h1, h5]
    rw [List.nil_append, List.nil_append]
    unfold runUntil
    rw [hp]
    simp only [Bool.false_eq_true, if_false, reduceCtorEq, List.foldl_cons, List.foldl_nil]
    cases b with
    | nil => unfold runUntil; rw [hq]; rfl
    | cons x b => unfold runUntil; rw [hq]; rfl
  | cons y a ih =>
    have hp : (endOf ts 0).isSome = false := by simp [endOf, h0, hn]
    obtain ⟨t', h1, _, _, h4⟩ := step_get h0 y
    have h5 : t'.ended = none := by
      rw [h4 hn]
      cases y with
      | finish j x =>
        dsimp only
        rw [if_neg]
        rintro rfl
        exact ha x List.mem_cons_self
      | _ => rfl
    have hy : y ≠ .signal := by rintro rfl; exact hs List.mem_cons_self
    rw [List.cons_append]
    rw [runUntil.eq_def]
    dsimp only
    rw [hp]
    simp only [Bool.false_eq_true, if_false, hy]
    exact ih _ t' h1 h5 (fun x hx => ha x (List.mem_cons_of_mem _ hx)) (fun hx => hs (List.mem_cons_of_mem _ hx))

/-- Until a signal comes before the main task has ended. -/
private theorem until_signal (ts : List Task) (t : Task) (h0 : ts[0]? = some t) (hn : t.ended = none) (a b : List Ev)
    (ha : ∀ x, Ev.finish 0 x ∉ a) (hs : Ev.signal ∉ a) :
    runUntil (fun ts => (endOf ts 0).isSome) ts (a ++ .signal :: b) = .signalled (a.foldl step ts) b ∧
    ∃ t', (a.foldl step ts)[0]? = some t' ∧ t'.ended = none := by
  induction a generalizing ts t with
  | nil =>
    have hp : (endOf ts 0).isSome = false := by simp [endOf, h0, hn]
    refine ⟨?_, t, h0, hn⟩
    rw [List.nil_append, runUntil.eq_def]
    dsimp only
    rw [hp]
    simp
  | cons y a ih =>
    have hp : (endOf ts 0).isSome = false := by simp [endOf, h0, hn]
    obtain ⟨t', h1, _, _, h4⟩ := step_get h0 y
    have h5 : t'.ended = none := by
      rw [h4 hn]
      cases y with
      | finish j x =>
        dsimp only
        rw [if_neg]
        rintro rfl
        exact ha x List.mem_cons_self
      | _ => rfl
    have hy : y ≠ .signal := by rintro rfl; exact hs List.mem_cons_self
    obtain ⟨g1, g2⟩ := ih (step ts y) t' h1 h5 (fun x hx => ha x (List.mem_cons_of_mem _ hx))
      (fun hx => hs (List.mem_cons_of_mem _ hx))
    refine ⟨?_, g2⟩
    rw [List.cons_append, runUntil.eq_def]
    dsimp only
    rw [hp]
    simp only [Bool.false_eq_true, if_false, hy]
    exact g1

private theorem until_complete (p : List Task → Bool) (ts ts' : List Task) (evs rest : List Ev)
    (h : runUntil p ts evs = .complete ts' rest) : p ts' = true ∧ ∃ pre : List Ev, ts' = pre.foldl step ts := by
  induction evs generalizing ts with
  | nil =>
    unfold runUntil at h
    split at h
    · rename_i hp; cases h; exact ⟨hp, [], rfl⟩
    · cases h
  | cons e evs ih =>
    rw [runUntil.eq_def] at h
    dsimp only at h
    split at h
    · rename_i hp; cases h; exact ⟨hp, [], rfl⟩
    · split at h
      · cases h
      · obtain ⟨h1, pre, h2⟩ := ih _ h
        exact ⟨h1, e :: pre, h2⟩

private theorem until_unsignalled (p : List Task → Bool) (ts ts' : List Task) (evs rest : List Ev)
    (hs : Ev.signal ∉ evs) : runUntil p ts evs ≠ .signalled ts' rest := by
  induction evs generalizing ts with
  | nil => unfold runUntil; split <;> simp
  | cons e evs ih =>
    rw [runUntil.eq_def]
    dsimp only
    split
    · simp
    · split
      · rename_i he; exact absurd (by rw [he]; exact List.mem_cons_self) hs
      · exact ih _ (fun hx => hs (List.mem_cons_of_mem _ hx))

/-- What becomes of the other tasks does not depend on the main task. -/
private theorem fold_others (a : List Ev) (i : Nat) (hi : i ≠ 0) : ∀ (ts ts' : List Task), ts.length = ts'.length →
    (∀ j, j ≠ 0 → ts[j]? = ts'[j]?) → (a.foldl step ts)[i]? = (a.foldl step ts')[i]? := by
  induction a with
  | nil => intro ts ts' _ h; exact h i hi
  | cons e a ih =>
    intro ts ts' hl h
    refine ih _ _ (by rw [step_length, step_length, hl]) ?_
    intro j hj
    cases e with
    | signal => exact h j hj
    | finish k x => simp only [step, finish_get, h j hj]
    | spawn =>
      simp only [step]
      rcases Nat.lt_or_ge j ts.length with h1 | h1
      · rw [List.getElem?_append_left h1, List.getElem?_append_left (hl ▸ h1), h j hj]
      · rw [List.getElem?_append_right h1, List.getElem?_append_right (hl ▸ h1), hl]

/-- The tasks when the main task has ended. -/
private structure At (a : List Ev) (e : End) (ts : List Task) : Prop where
  length : ts.length = spawns a + 1
  main : endOf ts 0 = some e
  others : ∀ i, i ≠ 0 → ∀ t, ts[i]? = some t → t.asked = false ∧ ∀ x, t.ended = some x → Ev.finish i x ∈ a
  same : ∀ i, i ≠ 0 → ts[i]? = (a.foldl step [{ asked := false, ended := none }])[i]?

private theorem spawns_append (a b : List Ev) : spawns (a ++ b) = spawns a + spawns b := by
  simp [spawns, List.count_append]

private theorem first_signal (a : List Ev) (hs : Ev.signal ∈ a) :
    ∃ a1 a2, a = a1 ++ Ev.signal :: a2 ∧ Ev.signal ∉ a1 := by
  induction a with
  | nil => cases hs
  | cons y a ih =>
    by_cases hy : y = .signal
    · exact ⟨[], a, by rw [hy]; rfl, by simp⟩
    · obtain ⟨a1, a2, h1, h2⟩ := ih (by
        rcases List.mem_cons.1 hs with h | h
        · exact absurd h.symm hy
        · exact h)
      exact ⟨y :: a1, a2, by rw [h1]; rfl, by
        simp only [List.mem_cons, not_or]; exact ⟨fun h => hy h.symm, h2⟩⟩

private theorem reports_sub (ts : List Task) (l : List Nat) : ((reports ts l).map (·.1)).Sublist l := by
  unfold reports
  induction l with
  | nil => simp
  | cons i l ih =>
    rw [List.filterMap_cons]
    cases hy : endOf ts i with
    | none => exact ih.cons _
    | some y =>
      cases y with
      | failed z => exact ih.cons_cons _
      | returned => exact ih.cons _
      | cancelled => exact ih.cons _

/-- What happens up to the end of the main task. -/
private theorem upTo (a b : List Ev) (e : End) (ha : ∀ x, Ev.finish 0 x ∉ a) (h2 : a.count .signal ≤ 1)
    (h3 : Ev.signal ∈ a → ∀ x, e ≠ .failed x) :
    ∃ ts, At a e ts ∧ runMain (a ++ .finish 0 e :: b) =
      cancelAll (if Ev.signal ∈ a then .signal else .main e) ts b := by
  by_cases hs : Ev.signal ∈ a
  · obtain ⟨a1, a2, rfl, hs1⟩ := first_signal a hs
    have hs2 : Ev.signal ∉ a2 := by
      intro hm
      have := List.count_pos_iff.2 hm
      simp only [List.count_append, List.count_cons, beq_self_eq_true, if_true] at h2
      omega
    have ha1 : ∀ x, Ev.finish 0 x ∉ a1 := fun x hx => ha x (List.mem_append_left _ hx)
    have ha2 : ∀ x, Ev.finish 0 x ∉ a2 := fun x hx =>
      ha x (List.mem_append_right _ (List.mem_cons_of_mem _ hx))
    obtain ⟨g1, t, g2, g3⟩ := until_signal [{ asked := false, ended := none }] _ rfl rfl a1
      (a2 ++ .finish 0 e :: b) ha1 hs1
    generalize hm : a1.foldl step [{ asked := false, ended := none }] = mid at *
    have hm0 : (mid.modify 0 Task.cancel)[0]? = some t.cancel := by rw [finish_get, if_pos rfl, g2]; rfl
    have hc : t.cancel.ended = none := by unfold Task.cancel; split <;> exact g3
    have g4 := until_main (mid.modify 0 Task.cancel) t.cancel hm0 hc a2 b e ha2 hs2
    refine ⟨(a2 ++ [Ev.finish 0 e]).foldl step (mid.modify 0 Task.cancel), ⟨?_, ?_, ?_, ?_⟩, ?_⟩
    · rw [fold_length, List.length_modify, ← hm, fold_length]
      simp only [spawns, List.count_append, List.count_cons, List.count_nil, List.length_singleton]
      have e1 : (Ev.signal == Ev.spawn) = false := rfl
      have e2 : (Ev.finish 0 e == Ev.spawn) = false := rfl
      rw [e1, e2]
      simp
      omega
    · obtain ⟨t1, q1, q2⟩ := fold_get hm0 a2
      rw [List.foldl_append, List.foldl_cons, List.foldl_nil]
      have q3 : t1.ended = none := by
        cases hx : t1.ended with
        | none => rfl
        | some x => exact absurd (q2.2.2 hc x hx) (ha2 x)
      obtain ⟨t2, q4, _, _, q5⟩ := step_get q1 (.finish 0 e)
      exact endOf_some.2 ⟨t2, q4, by rw [q5 q3]; simp⟩
    · intro i hi t' ht'
      have hne : ∀ x, Ev.finish i x ∈ a2 ++ [.finish 0 e] → Ev.finish i x ∈ a1 ++ .signal :: a2 := by
        intro x hx
        rcases List.mem_append.1 hx with hx | hx
        · exact List.mem_append_right _ (List.mem_cons_of_mem _ hx)
        · simp at hx; exact absurd hx.1 hi
      cases hmi : (mid.modify 0 Task.cancel)[i]? with
      | none =>
        obtain ⟨q1, q2⟩ := fold_fresh _ _ i t' ht' hmi
        exact ⟨q1, fun x hx => hne x (q2 x hx)⟩
      | some tm =>
        obtain ⟨t2, q1, q2, q3, q4⟩ := fold_get hmi (a2 ++ [.finish 0 e])
        rw [ht'] at q1
        cases q1
        rw [finish_get, if_neg (Ne.symm hi)] at hmi
        have hnone : ([{ asked := false, ended := none }] : List Task)[i]? = none := by
          cases i with
          | zero => exact absurd rfl hi
          | succ i => rfl
        obtain ⟨r1, r2⟩ := fold_fresh _ a1 i tm (by rw [hm]; exact hmi) hnone
        refine ⟨q2.trans r1, fun x hx => ?_⟩
        cases hx' : tm.ended with
        | none => exact hne x (q4 hx' x hx)
        | some y =>
          have := q3 y hx'
          rw [hx] at this
          cases this
          exact List.mem_append_left _ (r2 x hx')
    · intro i hi
      rw [List.foldl_append, List.foldl_append, List.foldl_cons, List.foldl_cons, List.foldl_nil, hm]
      rw [show step mid .signal = mid from rfl, ← fold_others a2 i hi (mid.modify 0 Task.cancel) mid (by simp)
        (fun j hj => by rw [finish_get, if_neg (Ne.symm hj)])]
      simp only [step]
      rw [finish_get, if_neg (Ne.symm hi)]
    · unfold runMain
      rw [List.append_assoc, List.cons_append, g1]
      dsimp only
      unfold finish
      have : (endOf mid 0).isSome = false := by simp [endOf, g2, g3]
      rw [this, g4]
      simp only [Bool.false_eq_true, if_false]
      have hend : endOf ((a2 ++ [Ev.finish 0 e]).foldl step (mid.modify 0 Task.cancel)) 0 = some e := by
        obtain ⟨t1, q1, q2⟩ := fold_get hm0 a2
        rw [List.foldl_append, List.foldl_cons, List.foldl_nil]
        have q3 : t1.ended = none := by
          cases hx : t1.ended with
          | none => rfl
          | some x => exact absurd (q2.2.2 hc x hx) (ha2 x)
        obtain ⟨t2, q4, _, _, q5⟩ := step_get q1 (.finish 0 e)
        exact endOf_some.2 ⟨t2, q4, by rw [q5 q3]; simp⟩
      rw [hend]
      simp only [hs, if_true]
      cases e with
      | failed x => exact absurd rfl (h3 hs x)
      | returned => rfl
      | cancelled => rfl
  · have g1 := until_main [{ asked := false, ended := none }] _ rfl rfl a b e ha hs
    have hend : endOf ((a ++ [Ev.finish 0 e]).foldl step [{ asked := false, ended := none }]) 0 = some e := by
      obtain ⟨t1, q1, q2⟩ := fold_get (ts := [{ asked := false, ended := none }]) (i := 0) rfl a
      rw [List.foldl_append, List.foldl_cons, List.foldl_nil]
      have q3 : t1.ended = none := by
        cases hx : t1.ended with
        | none => rfl
        | some x => exact absurd (q2.2.2 rfl x hx) (ha x)
      obtain ⟨t2, q4, _, _, q5⟩ := step_get q1 (.finish 0 e)
      exact endOf_some.2 ⟨t2, q4, by rw [q5 q3]; simp⟩
    refine ⟨(a ++ [Ev.finish 0 e]).foldl step [{ asked := false, ended := none }], ⟨?_, hend, ?_, ?_⟩, ?_⟩
    · rw [fold_length, spawns_append]
      have : spawns [Ev.finish 0 e] = 0 := rfl
      rw [this]
      simp
      omega
    · intro i hi t ht
      have hnone : ([{ asked := false, ended := none }] : List Task)[i]? = none := by
        cases i with
        | zero => exact absurd rfl hi
        | succ i => rfl
      obtain ⟨r1, r2⟩ := fold_fresh _ _ i t ht hnone
      refine ⟨r1, fun x hx => ?_⟩
      rcases List.mem_append.1 (r2 x hx) with hx | hx
      · exact hx
      · simp at hx; exact absurd hx.1 hi
    · intro i hi
      rw [List.foldl_append, List.foldl_cons, List.foldl_nil]
      simp only [step]
      rw [finish_get, if_neg (Ne.symm hi)]
    · unfold runMain
      rw [g1]
      dsimp only
      rw [hend]
      dsimp only
      unfold finish
      rw [hend]
      simp [hs]

/-- What `_cancel_all_tasks` leaves behind. -/
private theorem cancelled (out : Out) (ts : List Task) (b : List Ev) (o : Outcome) (hs : Ev.signal ∉ b)
    (h : cancelAll out ts b = some o) :
    o.out = out ∧ (∀ i < ts.length, (endOf o.tasks i).isSome = true) ∧
    (∀ i, (endOf ts i).isSome = true → endOf o.tasks i = endOf ts i) ∧
    (∀ (i : Nat) t, ts[i]? = some t → t.ended = none → ∃ t', o.tasks[i]? = some t' ∧ t'.asked = true) ∧
    (∀ i x, (i, x) ∈ o.reports ↔ (i < ts.length ∧ endOf ts i = none ∧ endOf o.tasks i = some (.failed x))) ∧
    (o.reports.map (·.1)).Nodup ∧
    (∀ (i : Nat) t, ts[i]? = some t → t.ended.isSome = true → o.tasks[i]? = some t) := by
  have hall : ∀ i, i ∈ allTasks ts ↔ (i < ts.length ∧ endOf ts i = none) := by
    intro i
    unfold allTasks
    simp [List.mem_filter, List.mem_range]
  unfold cancelAll at h
  dsimp only at h
  split at h
  · rename_i he
    cases h
    have hd : ∀ i < ts.length, (endOf ts i).isSome = true := by
      intro i hi
      cases hx : endOf ts i with
      | some x => rfl
      | none => have := (hall i).2 ⟨hi, hx⟩; rw [he] at this; cases this
    refine ⟨rfl, hd, fun _ _ => rfl, ?_, ?_, by simp, fun _ _ h _ => h⟩
    · intro i t ht hn
      have : endOf ts i = none := by simp [endOf, ht, hn]
      have hi : i < ts.length := by
        rcases Nat.lt_or_ge i ts.length with h1 | h1
        · exact h1
        · rw [List.getElem?_eq_none h1] at ht; cases ht
      have := hd i hi
      simp_all
    · intro i x
      constructor
      · intro h; cases h
      · rintro ⟨h1, h2, _⟩
        have := hd i h1
        rw [h2] at this
        cases this
  · split at h
    · rename_i ts' rest hu
      cases h
      obtain ⟨h1, pre, h2⟩ := until_complete _ _ _ _ _ hu
      have hget : ∀ (i : Nat) t, ts[i]? = some t → (ts.map Task.cancel)[i]? = some t.cancel := by
        intro i t ht; rw [List.getElem?_map, ht]; rfl
      have hkeep : ∀ i, (endOf ts i).isSome = true → endOf ts' i = endOf ts i := by
        intro i hi
        obtain ⟨x, hx⟩ := Option.isSome_iff_exists.1 hi
        obtain ⟨t, ht, hx'⟩ := endOf_some.1 hx
        have hc : t.cancel.ended = some x := by unfold Task.cancel; rw [hx']; simp [hx']
        obtain ⟨t2, q1, _, q3, _⟩ := fold_get (hget i t ht) pre
        rw [hx]
        exact endOf_some.2 ⟨t2, by rw [h2]; exact q1, q3 x hc⟩
      dsimp only
      refine ⟨rfl, ?_, hkeep, ?_, ?_, ?_, ?_⟩
      · intro i hi
        cases hx : endOf ts i with
        | some x => rw [hkeep i (by rw [hx]; rfl), hx]; rfl
        | none => exact List.all_eq_true.1 h1 i ((hall i).2 ⟨hi, hx⟩)
      · intro i t ht hn
        obtain ⟨t2, q1, q2, _⟩ := fold_get (hget i t ht) pre
        refine ⟨t2, by rw [h2]; exact q1, ?_⟩
        rw [q2]
        unfold Task.cancel
        rw [hn]
        rfl
      · intro i x
        unfold reports
        rw [List.mem_filterMap]
        constructor
        · rintro ⟨j, hj, hx⟩
          cases hy : endOf ts' j with
          | none => rw [hy] at hx; cases hx
          | some y =>
            rw [hy] at hx
            cases y with
            | failed z => cases hx; exact ⟨((hall _).1 hj).1, ((hall _).1 hj).2, hy⟩
            | returned => cases hx
            | cancelled => cases hx
        · rintro ⟨q1, q2, q3⟩
          exact ⟨i, (hall i).2 ⟨q1, q2⟩, by rw [q3]⟩
      · have hnd : (allTasks ts).Nodup := by unfold allTasks; exact List.filter_sublist.nodup List.nodup_range
        exact List.Sublist.nodup (reports_sub _ _) hnd
      · intro i t ht hd
        obtain ⟨x, hx⟩ := Option.isSome_iff_exists.1 hd
        have hc : t.cancel = t := by unfold Task.cancel; rw [hx]; rfl
        have hg := hget i t ht
        rw [hc] at hg
        obtain ⟨t2, q1, q2, q3, _⟩ := fold_get hg pre
        have : t2 = t := by
          cases t; cases t2
          have := q3 x hx
          simp_all
        rw [h2, q1, this]
    · rename_i ts' rest hu
      exact absurd hu (until_unsignalled _ _ _ _ _ hs)
    · cases h

/-! ### The property -/

/-- C186: without a signal the process ends as its main task does. With one it ends by the signal, after the main task
has ended. -/
theorem C186_result (a b : List Ev) (e : End) (ha : ∀ x, Ev.finish 0 x ∉ a) (h1 : Ev.signal ∉ b)
    (h2 : a.count .signal ≤ 1) (h3 : Ev.signal ∈ a → ∀ x, e ≠ .failed x) (o : Outcome)
    (h : runMain (a ++ .finish 0 e :: b) = some o) :
    (Ev.signal ∉ a → o.out = .main e) ∧ (Ev.signal ∈ a → o.out = .signal) ∧ endOf o.tasks 0 = some e := by
  obtain ⟨ts, h4, h5⟩ := upTo a b e ha h2 h3
  rw [h5] at h
  obtain ⟨g1, _, g3, _⟩ := cancelled _ _ _ _ h1 h
  refine ⟨fun hs => ?_, fun hs => ?_, ?_⟩
  · rw [g1, if_neg hs]
  · rw [g1, if_pos hs]
  · rw [g3 0 (by rw [h4.main]; rfl), h4.main]

/-- C186: the main task is ended first: whatever ends before the main task has ended, also after the signal, was not
cancelled, and ended as it did. -/
theorem C186_first (a1 a2 b : List Ev) (i : Nat) (x e : End) (hi : i ≠ 0)
    (ha : ∀ y, Ev.finish 0 y ∉ a1 ++ .finish i x :: a2) (h1 : Ev.signal ∉ b)
    (h2 : (a1 ++ .finish i x :: a2).count .signal ≤ 1)
    (h3 : Ev.signal ∈ a1 ++ .finish i x :: a2 → ∀ y, e ≠ .failed y)
    (hc : i ≤ spawns a1) (hn : ∀ y, Ev.finish i y ∉ a1) (o : Outcome)
    (h : runMain ((a1 ++ .finish i x :: a2) ++ .finish 0 e :: b) = some o) :
    o.tasks[i]? = some { asked := false, ended := some x } := by
  obtain ⟨ts, h4, h5⟩ := upTo _ b e ha h2 h3
  rw [h5] at h
  obtain ⟨_, _, _, _, _, _, g⟩ := cancelled _ _ _ _ h1 h
  have hs := h4.same i hi
  have hl : i < (a1.foldl step [{ asked := false, ended := none }]).length := by
    rw [fold_length]; simp; omega
  obtain ⟨t, ht⟩ : ∃ t, (a1.foldl step [{ asked := false, ended := none }])[i]? = some t :=
    ⟨_, List.getElem?_eq_getElem hl⟩
  have hnone : ([{ asked := false, ended := none }] : List Task)[i]? = none := by
    cases i with
    | zero => exact absurd rfl hi
    | succ i => rfl
  obtain ⟨r1, r2⟩ := fold_fresh _ a1 i t ht hnone
  have hte : t.ended = none := by
    cases hx : t.ended with
    | none => rfl
    | some y => exact absurd (r2 y hx) (hn y)
  obtain ⟨t1, q1, q2, _, q4⟩ := step_get ht (.finish i x)
  have q5 : t1.ended = some x := by rw [q4 hte]; simp
  obtain ⟨t2, p1, p2, p3, _⟩ := fold_get q1 a2
  have ht2 : t2 = { asked := false, ended := some x } := by
    cases t2
    have := p3 x q5
    simp_all
  rw [List.foldl_append, List.foldl_cons, p1, ht2] at hs
  exact g i _ hs rfl

/-- The full property: when the process ends no task is left in the middle of what it does. `a` is what happens up to
the end of the main task. -/
def C186_ended_full : Prop :=
  ∀ (a b : List Ev) (e : End) (o : Outcome), (∀ x, Ev.finish 0 x ∉ a) → Ev.signal ∉ b → a.count .signal ≤ 1 →
    runMain (a ++ .finish 0 e :: b) = some o → ∀ i < o.tasks.length, (endOf o.tasks i).isSome = true

/-- C186, what holds of it: all tasks that were there when the main task ended have ended, and those that had not ended
by themselves were cancelled; unless there is a further signal after the main task has ended, or the main task fails
while it is cancelled. -/
theorem C186_ended_partial (a b : List Ev) (e : End) (ha : ∀ x, Ev.finish 0 x ∉ a) (h1 : Ev.signal ∉ b)
    (h2 : a.count .signal ≤ 1) (h3 : Ev.signal ∈ a → ∀ x, e ≠ .failed x) (o : Outcome)
    (h : runMain (a ++ .finish 0 e :: b) = some o) :
    ∀ i < spawns a + 1, (endOf o.tasks i).isSome = true ∧
      (i ≠ 0 → (∀ x, Ev.finish i x ∉ a) → ∃ t, o.tasks[i]? = some t ∧ t.asked = true) := by
  obtain ⟨ts, h4, h5⟩ := upTo a b e ha h2 h3
  rw [h5] at h
  obtain ⟨_, g2, _, g4, _⟩ := cancelled _ _ _ _ h1 h
  intro i hi
  rw [← h4.length] at hi
  refine ⟨g2 i hi, fun hz hf => ?_⟩
  have ht := List.getElem?_eq_getElem hi
  obtain ⟨_, q2⟩ := h4.others i hz _ ht
  refine g4 i _ ht ?_
  cases hx : ts[i].ended with
  | none => rfl
  | some x => exact absurd (q2 x hx) (hf x)

/-- C186: each task that fails while it is cancelled is reported, once, and nothing else is. -/
theorem C186_reports (a b : List Ev) (e : End) (ha : ∀ x, Ev.finish 0 x ∉ a) (h1 : Ev.signal ∉ b)
    (h2 : a.count .signal ≤ 1) (h3 : Ev.signal ∈ a → ∀ x, e ≠ .failed x) (o : Outcome)
    (h : runMain (a ++ .finish 0 e :: b) = some o) :
    (o.reports.map (·.1)).Nodup ∧
    (∀ i x, (i, x) ∈ o.reports → i ≠ 0 ∧ i < spawns a + 1 ∧ endOf o.tasks i = some (.failed x)) ∧
    (∀ i x, i ≠ 0 → i < spawns a + 1 → (∀ y, Ev.finish i y ∉ a) → endOf o.tasks i = some (.failed x) →
      (i, x) ∈ o.reports) := by
  obtain ⟨ts, h4, h5⟩ := upTo a b e ha h2 h3
  rw [h5] at h
  obtain ⟨_, g2, _, g4, g5, g6, _⟩ := cancelled _ _ _ _ h1 h
  refine ⟨g6, ?_, ?_⟩
  · intro i x hx
    obtain ⟨q1, q2, q3⟩ := (g5 i x).1 hx
    refine ⟨?_, by rw [← h4.length]; exact q1, q3⟩
    rintro rfl
    rw [h4.main] at q2
    cases q2
  · intro i x hz hi hf hx
    rw [← h4.length] at hi
    refine (g5 i x).2 ⟨hi, ?_, hx⟩
    cases hy : endOf ts i with
    | none => rfl
    | some y =>
      obtain ⟨t, ht, hy'⟩ := endOf_some.1 hy
      obtain ⟨_, q2⟩ := h4.others i hz t ht
      exact absurd (q2 y hy') (hf y)

/-- C186_ended_full does not hold: a task that is created by another one while that is cancelled is neither cancelled
nor waited for. -/
theorem C186_ended_violated : ¬ C186_ended_full := by
  intro h
  have := h [.spawn] [.spawn, .finish 1 .cancelled] .returned
    ⟨.main .returned, [⟨false, some .returned⟩, ⟨true, some .cancelled⟩, ⟨false, none⟩], []⟩
    (by simp) (by simp) (by simp) (by decide) 2 (by decide)
  revert this
  decide

/-- And if the main task fails when it is cancelled for a signal, no other task is cancelled, and that exception is
raised. The main tasks of the gateway and of the controller catch what their cleanup raises. -/
theorem C186_signal_violated : ∃ o, runMain [.spawn, .signal, .finish 0 (.failed 7)] = some o ∧
    o.out = .raised 7 ∧ o.tasks[1]? = some ⟨false, none⟩ := by
  exact ⟨⟨.raised 7, [⟨true, some (.failed 7)⟩, ⟨false, none⟩], []⟩, by decide, rfl, rfl⟩

/-- A signal with two tasks running, of which one fails when it is cancelled and one had ended before. -/
example : runMain [.spawn, .spawn, .spawn, .finish 2 .returned, .signal, .finish 1 (.failed 3), .finish 0 .cancelled,
    .finish 3 (.failed 4)] =
    some ⟨.signal, [⟨true, some .cancelled⟩, ⟨false, some (.failed 3)⟩, ⟨false, some .returned⟩,
      ⟨true, some (.failed 4)⟩], [(3, 4)]⟩ := by decide

/-- The second task ended between the signal and the end of the main task, and was not cancelled; the third was. -/
example : ∃ o, runMain (([.spawn, .spawn, .signal] ++ .finish 1 .returned :: []) ++ .finish 0 .cancelled ::
      [.finish 2 .cancelled]) = some o ∧ o.tasks[1]? = some ⟨false, some .returned⟩ ∧
      o.tasks[2]? = some ⟨true, some .cancelled⟩ :=
  ⟨⟨.signal, [⟨true, some .cancelled⟩, ⟨false, some .returned⟩, ⟨true, some .cancelled⟩], []⟩, by decide, rfl, rfl⟩

end Verif.Stop
