import Verif.Sched.Adapt
/-! Properties C54 and C73: adaptive and explicit scaling. -/
set_option linter.unusedSimpArgs false
set_option linter.unusedVariables false
namespace Verif.Sched

/-! ### Specification -/

/-- A demand with the bounds in force when it was made. -/
structure Demand where
  demand : Int
  minimum : Option Int
  maximum : Option Int
  deriving DecidableEq

/-- Not less than the minimum, if there is one, but in any case not more than the maximum. -/
structure Fits (lo hi : Option Int) (demand n : Int) : Prop where
  max : ∀ m, hi = some m → n ≤ m
  min : ∀ m, lo = some m → (∀ M, hi = some M → m ≤ M) → m ≤ n
  same : (∀ m, lo = some m → m ≤ demand) → (∀ m, hi = some m → demand ≤ m) → n = demand

/-- The bounds and, while adaptive scaling is on, the demands since it was turned on, latest last. A
request to turn it off that hangs does not. -/
def demands (size : Nat) (ops : List AOp) : (Option Int × Option Int) × Option (List Demand) :=
  (ops.foldl (fun (x : ((Option Int × Option Int) × Option (List Demand)) × Adapt) op =>
    ((match op with
      | .enable lo hi => ((lo, hi), some (x.1.2.getD []))
      | .disable => if x.2.busy then x.1 else (x.1.1, none)
      | .scale _ => if x.2.busy then x.1 else (x.1.1, none)
      | .tick d _ => if x.2.busy then x.1 else (x.1.1, x.1.2.map (· ++ [⟨d, x.1.1.1, x.1.1.2⟩]))
      | .resume => x.1), x.2.step size op)) (((none, none), none), .init)).1

/-- The last `size` of them. -/
def recent (size : Nat) (l : List Demand) : List Demand := l.drop (l.length - size)

/-- A demand within its bounds. -/
def Demand.bounded (d : Demand) : Int :=
  let t := max d.demand (d.minimum.getD d.demand)
  min t (d.maximum.getD t)

/-! ### Lemmas -/

theorem bounded_fits (d : Demand) : Fits d.minimum d.maximum d.demand d.bounded := by
  obtain ⟨n, lo, hi⟩ := d
  unfold Demand.bounded
  constructor
  · rintro m rfl
    simp only [Option.getD_some]; omega
  · rintro m rfl h
    cases hi with
    | none => simp only [Option.getD_some, Option.getD_none]; omega
    | some M =>
      have := h M rfl
      simp only [Option.getD_some]; omega
  · intro h1 h2
    change _ = n
    replace h1 : ∀ m, lo = some m → m ≤ n := h1
    replace h2 : ∀ m, hi = some m → n ≤ m := h2
    cases lo with
    | none =>
      cases hi with
      | none => simp
      | some M => have := h2 M rfl; simp only [Option.getD_some, Option.getD_none]; omega
    | some m =>
      have := h1 m rfl
      cases hi with
      | none => simp only [Option.getD_some, Option.getD_none]; omega
      | some M => have := h2 M rfl; simp only [Option.getD_some, Option.getD_none]; omega

private theorem target_eq (a : Adapt) (d : Int) : a.target d = Demand.bounded ⟨d, a.minimum, a.maximum⟩ := by
  unfold Adapt.target Demand.bounded
  cases a.minimum <;> cases a.maximum <;> simp only [Option.getD_none, Option.getD_some] <;>
    repeat' split
  all_goals omega

private theorem snoc_ind {α : Type} {P : List α → Prop} (h0 : P []) (hs : ∀ l a, P l → P (l ++ [a]))
    (l : List α) : P l := by
  rw [← List.reverse_reverse l]
  induction l.reverse with
  | nil => exact h0
  | cons a r ih => rw [List.reverse_cons]; exact hs _ _ ih

private theorem run_snoc (size : Nat) (ops : List AOp) (op : AOp) :
    Adapt.run size (ops ++ [op]) = (Adapt.run size ops).step size op := by
  unfold Adapt.run; rw [List.foldl_append]; rfl

private theorem demands_aux (size : Nat) (ops : List AOp) : ∀ (x : (Option Int × Option Int) × Option (List Demand)) (a : Adapt),
    (ops.foldl (fun (x : ((Option Int × Option Int) × Option (List Demand)) × Adapt) op =>
    ((match op with
      | .enable lo hi => ((lo, hi), some (x.1.2.getD []))
      | .disable => if x.2.busy then x.1 else (x.1.1, none)
      | .scale _ => if x.2.busy then x.1 else (x.1.1, none)
      | .tick d _ => if x.2.busy then x.1 else (x.1.1, x.1.2.map (· ++ [⟨d, x.1.1.1, x.1.1.2⟩]))
      | .resume => x.1), x.2.step size op)) (x, a)).2 = ops.foldl (Adapt.step size) a := by
  induction ops with
  | nil => intro x a; rfl
  | cons op ops ih => intro x a; exact ih _ _

private theorem demands_snoc (size : Nat) (ops : List AOp) (op : AOp) :
    demands size (ops ++ [op]) = match op with
      | .enable lo hi => ((lo, hi), some ((demands size ops).2.getD []))
      | .disable => if (Adapt.run size ops).busy then demands size ops else ((demands size ops).1, none)
      | .scale _ => if (Adapt.run size ops).busy then demands size ops else ((demands size ops).1, none)
      | .tick d _ => if (Adapt.run size ops).busy then demands size ops
        else ((demands size ops).1,
          (demands size ops).2.map (· ++ [⟨d, (demands size ops).1.1, (demands size ops).1.2⟩]))
      | .resume => demands size ops := by
  unfold demands Adapt.run
  rw [List.foldl_append]
  have := demands_aux size ops ((none, none), none) .init
  cases op <;> simp only [List.foldl_cons, List.foldl_nil, this]

private theorem push_eq (size : Nat) (l : List Demand) (d : Demand) :
    push size ((recent size l).map Demand.bounded) d.bounded =
      (recent size (l ++ [d])).map Demand.bounded := by
  unfold push recent
  rw [List.map_drop, List.map_drop, List.map_append, List.map_cons, List.map_nil]
  have e : (l.map Demand.bounded).drop (l.length - size) ++ [d.bounded] =
      (l.map Demand.bounded ++ [d.bounded]).drop (l.length - size) := by
    rw [List.drop_append_of_le_length (by rw [List.length_map]; omega)]
  rw [e, List.drop_drop]
  congr 1
  simp only [List.length_drop, List.length_append, List.length_map, List.length_singleton]
  omega

private theorem push_nonempty (size : Nat) (l : List Int) (x : Int) (h : 0 < size) :
    x ∈ push size l x := by
  unfold push
  rw [List.drop_append_of_le_length]
  · simp
  · simp only [List.length_append, List.length_singleton]; omega

/-- What holds of the state in every history. -/
private structure Inv (size : Nat) (ops : List AOp) : Prop where
  lo : (Adapt.run size ops).minimum = (demands size ops).1.1
  hi : (Adapt.run size ops).maximum = (demands size ops).1.2
  window : (Adapt.run size ops).window =
    (demands size ops).2.map (fun l => (recent size l).map Demand.bounded)
  busy : (Adapt.run size ops).window = none → (Adapt.run size ops).busy = false

private theorem tick_cases (size : Nat) (a : Adapt) (d : Int) (waits : Bool) :
    (a.tick size d waits).1.minimum = a.minimum ∧ (a.tick size d waits).1.maximum = a.maximum ∧
    (a.tick size d waits).1.window =
      (if a.busy then a.window else a.window.map (fun w => push size w (a.target d))) := by
  unfold Adapt.tick
  cases h : a.window with
  | none => cases a.busy <;> simp [h]
  | some w =>
    cases hb : a.busy with
    | true => simp [h]
    | false =>
      simp only [Bool.false_eq_true, if_false]
      cases decideCount a.count (a.target d) (push size w (a.target d)) <;> simp

private theorem inv (size : Nat) (ops : List AOp) : Inv size ops := by
  induction ops using snoc_ind with
  | h0 => exact ⟨rfl, rfl, rfl, fun _ => rfl⟩
  | hs ops op ih =>
    obtain ⟨h1, h2, h3, h4⟩ := ih
    cases op with
    | enable lo hi =>
      constructor <;> rw [run_snoc]
      · rw [demands_snoc]; rfl
      · rw [demands_snoc]; rfl
      · rw [demands_snoc]
        change some ((Adapt.run size ops).window.getD []) = _
        rw [h3]
        dsimp only
        cases (demands size ops).2 with
        | none => simp [recent]
        | some l => rfl
      · intro h; cases h
    | disable =>
      have e : (Adapt.run size ops).step size .disable = (Adapt.run size ops).disable.1 := rfl
      constructor <;> rw [run_snoc, e] <;> unfold Adapt.disable
      all_goals
        try rw [demands_snoc]
        cases hw : (Adapt.run size ops).window with
        | none =>
          simp only [h4 hw, hw, Bool.false_eq_true, if_false]
          first | exact h1 | exact h2 | rfl | exact fun _ => rfl | simp_all
        | some w =>
          cases hb : (Adapt.run size ops).busy
          all_goals simp only [Bool.false_eq_true, if_false, if_true]
          all_goals first | exact h1 | exact h2 | (rw [← h3]; exact hw) | rfl | simp_all
    | scale n =>
      have e : (Adapt.run size ops).step size (.scale n) = (Adapt.run size ops).scale n := rfl
      constructor <;> rw [run_snoc, e] <;> unfold Adapt.scale Adapt.disable
      all_goals
        try rw [demands_snoc]
        cases hw : (Adapt.run size ops).window with
        | none =>
          simp only [h4 hw, hw, Bool.false_eq_true, if_false]
          first | exact h1 | exact h2 | rfl | exact fun _ => rfl | simp_all
        | some w =>
          cases hb : (Adapt.run size ops).busy
          all_goals simp only [Bool.false_eq_true, if_false, if_true]
          all_goals first | exact h1 | exact h2 | (rw [← h3]; exact hw) | rfl | simp_all
    | tick d waits =>
      have e : (Adapt.run size ops).step size (.tick d waits) = ((Adapt.run size ops).tick size d waits).1 :=
        rfl
      have t := tick_cases size (Adapt.run size ops) d waits
      constructor <;> rw [run_snoc, e]
      · rw [t.1, demands_snoc, h1]; dsimp only; split <;> rfl
      · rw [t.2.1, demands_snoc, h2]; dsimp only; split <;> rfl
      · rw [t.2.2, demands_snoc]
        dsimp only
        cases (Adapt.run size ops).busy with
        | true => exact h3
        | false =>
          simp only [Bool.false_eq_true, if_false]
          rw [h3, target_eq, h1, h2]
          cases (demands size ops).2 with
          | none => rfl
          | some l => exact congrArg some (push_eq size l _)
      · rw [t.2.2]
        intro h
        have hw : (Adapt.run size ops).window = none := by
          split at h
          · exact h
          · simpa using h
        unfold Adapt.tick
        rw [hw]
        exact h4 hw
    | resume =>
      constructor <;> rw [run_snoc]
      · rw [demands_snoc]; exact h1
      · rw [demands_snoc]; exact h2
      · rw [demands_snoc]; exact h3
      · exact fun _ => rfl

private theorem maxOf_spec {l : List Int} {m : Int} (h : maxOf l = some m) :
    m ∈ l ∧ ∀ x ∈ l, x ≤ m := by
  induction l generalizing m with
  | nil => cases h
  | cons x l ih =>
    unfold maxOf at h
    cases hl : maxOf l with
    | none =>
      rw [hl] at h
      cases h
      have : l = [] := by
        cases l with
        | nil => rfl
        | cons y l =>
          unfold maxOf at hl
          cases h : maxOf l <;> rw [h] at hl <;> cases hl
      subst this
      simp
    | some m' =>
      rw [hl] at h
      obtain ⟨i1, i2⟩ := ih hl
      simp only [Option.some.injEq] at h
      split at h
      · subst h
        refine ⟨List.mem_cons_of_mem _ i1, ?_⟩
        intro y hy
        rcases List.mem_cons.1 hy with rfl | hy
        · omega
        · exact i2 y hy
      · subst h
        refine ⟨List.mem_cons_self, ?_⟩
        intro y hy
        rcases List.mem_cons.1 hy with rfl | hy
        · omega
        · have := i2 y hy; omega

private theorem maxOf_isSome {l : List Int} {x : Int} (h : x ∈ l) : ∃ m, maxOf l = some m := by
  cases l with
  | nil => cases h
  | cons y l =>
    unfold maxOf
    cases maxOf l with
    | none => exact ⟨_, rfl⟩
    | some m => exact ⟨_, rfl⟩

private theorem not_busy {size : Nat} {a : Adapt} {d : Int} {waits : Bool} {n : Int}
    (h : (a.tick size d waits).2 = some n) : a.busy = false := by
  cases hb : a.busy with
  | false => rfl
  | true =>
    exfalso
    unfold Adapt.tick at h
    rw [hb] at h
    cases hw : a.window <;> rw [hw] at h <;> simp at h

/-- A round, in terms of the demands. -/
private theorem tick_spec (size : Nat) (ops : List AOp) (d : Int) (waits : Bool) (l : List Demand)
    (hl : (demands size (ops ++ [.tick d waits])).2 = some l) (hb : (Adapt.run size ops).busy = false) :
    ((Adapt.run size ops).tick size d waits).2 =
      decideCount (Adapt.run size ops).count
        (Demand.bounded ⟨d, (demands size ops).1.1, (demands size ops).1.2⟩)
        ((recent size l).map Demand.bounded) ∧
    ∃ l', l = l' ++ [⟨d, (demands size ops).1.1, (demands size ops).1.2⟩] := by
  have hi := inv size ops
  rw [demands_snoc] at hl
  simp only [hb, Bool.false_eq_true, if_false] at hl
  cases hd : (demands size ops).2 with
  | none => rw [hd] at hl; cases hl
  | some l0 =>
    rw [hd] at hl
    cases hl
    have hw := hi.window
    rw [hd] at hw
    refine ⟨?_, l0, rfl⟩
    unfold Adapt.tick
    rw [hw]
    simp only [Option.map_some, hb, Bool.false_eq_true, if_false]
    rw [target_eq, hi.lo, hi.hi, push_eq]
    cases decideCount (Adapt.run size ops).count
        (Demand.bounded ⟨d, (demands size ops).1.1, (demands size ops).1.2⟩) _ <;> rfl

/-! ### C54 -/

/-- C54: adaptive scaling asks for more workers at once, and for as many as are in demand. -/
theorem C54_grows (size : Nat) (ops : List AOp) (d : Int) (waits : Bool) (l : List Demand)
    (hl : (demands size (ops ++ [.tick d waits])).2 = some l) (hb : (Adapt.run size ops).busy = false)
    (hc : (Adapt.run size ops).count < Demand.bounded ⟨d, (demands size ops).1.1, (demands size ops).1.2⟩) :
    ((Adapt.run size ops).tick size d waits).2 =
      some (Demand.bounded ⟨d, (demands size ops).1.1, (demands size ops).1.2⟩) := by
  rw [(tick_spec size ops d waits l hl hb).1]
  unfold decideCount
  rw [if_pos hc]

/-- C54: it asks for fewer workers only if all recent demands are for fewer, and for as many as the
largest of them. -/
theorem C54_shrinks (size : Nat) (ops : List AOp) (d : Int) (waits : Bool) (n : Int)
    (h : ((Adapt.run size ops).tick size d waits).2 = some n) (hn : n < (Adapt.run size ops).count) :
    ∃ l, (demands size (ops ++ [.tick d waits])).2 = some l ∧
      (∃ x ∈ recent size l, x.bounded = n) ∧ ∀ x ∈ recent size l, x.bounded ≤ n := by
  have hb := not_busy h
  cases hl : (demands size (ops ++ [.tick d waits])).2 with
  | none =>
    exfalso
    have hw : (Adapt.run size ops).window = none := by
      rw [demands_snoc] at hl
      simp only [hb, Bool.false_eq_true, if_false, Option.map_eq_none_iff] at hl
      rw [(inv size ops).window, hl]; rfl
    unfold Adapt.tick at h
    rw [hw] at h
    cases h
  | some l =>
    refine ⟨l, rfl, ?_⟩
    rw [(tick_spec size ops d waits l hl hb).1] at h
    unfold decideCount at h
    split at h
    · cases h; omega
    · split at h
      · split at h
        · cases h
        · rename_i m hm
          split at h
          · cases h
            have hs := maxOf_spec hm
            refine ⟨?_, fun x hx => hs.2 _ (List.mem_map_of_mem hx)⟩
            obtain ⟨x, hx, e⟩ := List.mem_map.1 hs.1
            exact ⟨x, hx, e⟩
          · cases h
      · cases h

/-- C54: what it asks for is never below the minimum in force (nor, if the maximum is smaller, below
that). -/
theorem C54_minimum (size : Nat) (hz : 0 < size) (ops : List AOp) (d : Int) (waits : Bool) (n : Int)
    (h : ((Adapt.run size ops).tick size d waits).2 = some n) :
    ∀ m, (demands size ops).1.1 = some m → (∀ M, (demands size ops).1.2 = some M → m ≤ M) → m ≤ n := by
  intro m hm hM
  have hb := not_busy h
  have hf := (bounded_fits ⟨d, (demands size ops).1.1, (demands size ops).1.2⟩).min m hm hM
  by_cases hn : n < (Adapt.run size ops).count
  · obtain ⟨l, hl, _, h2⟩ := C54_shrinks size ops d waits n h hn
    obtain ⟨l', e⟩ := (tick_spec size ops d waits l hl hb).2
    have : Demand.bounded ⟨d, (demands size ops).1.1, (demands size ops).1.2⟩ ≤ n := by
      refine h2 _ ?_
      rw [e]
      unfold recent
      rw [List.drop_append_of_le_length (by
        simp only [List.length_append, List.length_singleton]; omega)]
      simp
    omega
  · cases hl : (demands size (ops ++ [.tick d waits])).2 with
    | none =>
      exfalso
      rw [demands_snoc] at hl
      simp only [hb, Bool.false_eq_true, if_false, Option.map_eq_none_iff] at hl
      have hw : (Adapt.run size ops).window = none := by
        rw [(inv size ops).window, hl]; rfl
      unfold Adapt.tick at h
      rw [hw] at h
      cases h
    | some l =>
      rw [(tick_spec size ops d waits l hl hb).1] at h
      unfold decideCount at h
      split at h
      · cases h; exact hf
      · split at h
        · split at h
          · cases h
          · split at h
            · cases h; omega
            · cases h
        · cases h

/-- C54, in part: what it asks for is never above the maximum, if the recent demands were made under
the bounds still in force. Missing: the first rounds after the maximum is lowered, see
`C54_violated`. -/
theorem C54_maximum_partial (size : Nat) (ops : List AOp) (d : Int) (waits : Bool) (n : Int)
    (h : ((Adapt.run size ops).tick size d waits).2 = some n) (l : List Demand)
    (hl : (demands size (ops ++ [.tick d waits])).2 = some l)
    (hs : ∀ x ∈ recent size l, x.maximum = (demands size ops).1.2) :
    ∀ M, (demands size ops).1.2 = some M → n ≤ M := by
  intro M hM
  have hb := not_busy h
  by_cases hn : n < (Adapt.run size ops).count
  · obtain ⟨l', hl', ⟨x, hx, e⟩, _⟩ := C54_shrinks size ops d waits n h hn
    rw [hl] at hl'
    cases hl'
    rw [← e]
    exact (bounded_fits x).max M ((hs x hx).trans hM)
  · rw [(tick_spec size ops d waits l hl hb).1] at h
    unfold decideCount at h
    split at h
    · cases h
      exact (bounded_fits ⟨d, (demands size ops).1.1, (demands size ops).1.2⟩).max M hM
    · split at h
      · split at h
        · cases h
        · split at h
          · cases h; omega
          · cases h
      · cases h

/-- Demand falls from ten to six; then the maximum is lowered to five. -/
private def falling : List AOp :=
  [.enable none none, .tick 10 false, .tick 8 false, .tick 7 false, .tick 6 false, .enable none (some 5)]

/-- C54 does not hold in full: after the maximum has been lowered to five, seven workers are asked for. -/
theorem C54_violated : ¬ ∀ (ops : List AOp) (d : Int) (n : Int),
    ((Adapt.run 3 ops).tick 3 d false).2 = some n →
    ∀ M, (demands 3 ops).1.2 = some M → n ≤ M := by
  intro h
  have := h falling 4 7 (by decide) 5 (by decide)
  omega

/-- Growth is immediate, shrinking waits for three lower demands, and the bounds hold. -/
example :
    (Adapt.run 3 [.enable (some 1) (some 5), .tick 9 false]).count = 5 ∧
    (Adapt.run 3 [.enable (some 1) (some 5), .tick 9 false, .tick 2 false, .tick 0 false]).count = 5 ∧
    (Adapt.run 3 [.enable (some 1) (some 5), .tick 9 false, .tick 2 false, .tick 0 false,
      .tick 0 false]).count = 2 ∧
    (demands 3 [.enable (some 1) (some 5), .tick 9 false, .tick 2 false]).2 =
      some [⟨9, some 1, some 5⟩, ⟨2, some 1, some 5⟩] := by decide

/-! ### C73 -/

/-- C73: an explicit request for a number of workers sets it and turns adaptive scaling off, if the
adaptive loop is not just interrupting the wait for the next heartbeat. Missing: that case, see
`C73_violated`. -/
theorem C73_scale_partial (size : Nat) (ops : List AOp) (n : Int)
    (hb : (Adapt.run size ops).busy = false) :
    (Adapt.run size (ops ++ [.scale n])).count = n ∧
    (Adapt.run size (ops ++ [.scale n])).hung = (Adapt.run size ops).hung ∧
    (Adapt.run size (ops ++ [.scale n])).window = none := by
  rw [run_snoc]
  change ((Adapt.run size ops).scale n).count = n ∧ ((Adapt.run size ops).scale n).hung = _ ∧
    ((Adapt.run size ops).scale n).window = none
  unfold Adapt.scale Adapt.disable
  cases hw : (Adapt.run size ops).window with
  | none => exact ⟨rfl, rfl, hw⟩
  | some w => rw [hb]; exact ⟨rfl, rfl, rfl⟩

/-- C73: and the count stays what was asked for until there is another request. -/
theorem C73_scale_stays_partial (size : Nat) (ops rounds : List AOp) (n : Int)
    (hb : (Adapt.run size ops).busy = false)
    (hr : ∀ op ∈ rounds, op = .resume ∨ ∃ d w, op = .tick d w) :
    (Adapt.run size (ops ++ [.scale n] ++ rounds)).count = n := by
  have : (Adapt.run size (ops ++ [.scale n] ++ rounds)).count = n ∧
      (Adapt.run size (ops ++ [.scale n] ++ rounds)).window = none := by
    induction rounds using snoc_ind with
    | h0 =>
      have := C73_scale_partial size ops n hb
      rw [List.append_nil]; exact ⟨this.1, this.2.2⟩
    | hs l op ih =>
      have ih := ih (fun x hx => hr x (List.mem_append.2 (Or.inl hx)))
      rw [← List.append_assoc, run_snoc]
      rcases hr op (by simp) with rfl | ⟨d, w, rfl⟩
      · exact ih
      · change ((Adapt.run size (ops ++ [.scale n] ++ l)).tick size d w).1.count = n ∧
          ((Adapt.run size (ops ++ [.scale n] ++ l)).tick size d w).1.window = none
        unfold Adapt.tick
        rw [ih.2]
        exact ih
  exact this.1

/-- C73: without adaptive scaling a request always takes effect. -/
theorem C73_scale_plain (size : Nat) (ops : List AOp) (n : Int)
    (ho : (Adapt.run size ops).window = none) : (Adapt.run size (ops ++ [.scale n])).count = n :=
  (C73_scale_partial size ops n ((inv size ops).busy ho)).1

/-- C73 does not hold in full: a request that comes while the adaptive loop interrupts the wait for the
next heartbeat does not take effect and is never answered. -/
theorem C73_violated : ¬ ∀ (ops : List AOp) (n : Int),
    (Adapt.run 3 (ops ++ [.scale n])).count = n := by
  intro h
  have := h [.enable none none, .tick 4 true] 1
  revert this
  decide

/-- The request is left hanging and adaptive scaling goes on. -/
example :
    let a := Adapt.run 3 [.enable none none, .tick 4 true, .scale 1, .resume, .tick 6 false]
    a.count = 6 ∧ a.hung = 1 := by decide

/-- A request between rounds takes effect. -/
example :
    let a := Adapt.run 3 [.enable none none, .tick 4 true, .resume, .scale 1, .tick 6 false]
    a.count = 1 ∧ a.hung = 0 := by decide

end Verif.Sched
