import Verif.Flag.Model
/-! Property C185: waiting for a flag. -/
set_option linter.unusedSimpArgs false
set_option linter.unusedVariables false
namespace Verif.Flag

/-- How the wait of the `i`-th that waited has ended after a history, if it has. -/
def ended (h : List Ev) (i : Nat) : Option Out :=
  match Flag.new.run h with
  | some f =>
    match f.waiters[i]? with
    | some w => w.out
    | none => none
  | none => none

/-- How many have waited. -/
def waits : List Ev → Nat
  | [] => 0
  | .wait :: h => waits h + 1
  | _ :: h => waits h

/-! ### Lemmas -/

private structure Ok (past : List Ev) (f : Flag) : Prop where
  future : (f.future = .done ∧ Ev.set ∈ past) ∨ (f.future = .pending ∧ Ev.set ∉ past)
  length : f.waiters.length = waits past
  waiter : ∀ (i : Nat) w, f.waiters[i]? = some w →
    (w.outer = .done → Ev.set ∈ past) ∧
    (w.outer = .cancelled → Ev.cancel i ∈ past) ∧
    (w.mustCancel = true → Ev.cancel i ∈ past) ∧
    (w.out = some .returned → Ev.set ∈ past) ∧
    (w.out = some .cancelled → Ev.cancel i ∈ past)

private theorem waits_append (a b : List Ev) : waits (a ++ b) = waits a + waits b := by
  induction a with
  | nil => simp [waits]
  | cons e a ih => cases e <;> simp [waits, ih] <;> omega

private theorem at_length (f : Flag) (i : Nat) (g : Waiter → Waiter) :
    (f.at i g).waiters.length = f.waiters.length ∧ (f.at i g).future = f.future := by
  unfold Flag.at
  split <;> simp

private theorem at_get (f : Flag) (i j : Nat) (g : Waiter → Waiter) :
    (f.at i g).waiters[j]? = if j = i then f.waiters[i]?.map g else f.waiters[j]? := by
  unfold Flag.at
  cases h : f.waiters[i]? with
  | none =>
    dsimp only
    split
    · rename_i e; subst e; rw [h]; rfl
    · rfl
  | some w =>
    dsimp only
    rw [List.getElem?_set]
    have hi : i < f.waiters.length := by
      rcases Nat.lt_or_ge i f.waiters.length with h1 | h1
      · exact h1
      · rw [List.getElem?_eq_none h1] at h; cases h
    by_cases e : j = i
    · subst e; simp [hi]
    · simp [e, Ne.symm e]

private theorem ok_step {past : List Ev} {f : Flag} (h : Ok past f) (e : Ev) :
    ∃ f', f.step e = some f' ∧ Ok (past ++ [e]) f' := by
  have mono : ∀ x, x ∈ past → x ∈ past ++ [e] := fun x hx => List.mem_append_left _ hx
  have old : ∀ (i : Nat) w, f.waiters[i]? = some w →
      (w.outer = .done → Ev.set ∈ past ++ [e]) ∧ (w.outer = .cancelled → Ev.cancel i ∈ past ++ [e]) ∧
      (w.mustCancel = true → Ev.cancel i ∈ past ++ [e]) ∧
      (w.out = some .returned → Ev.set ∈ past ++ [e]) ∧
      (w.out = some .cancelled → Ev.cancel i ∈ past ++ [e]) := by
    intro i w hw
    obtain ⟨h1, h2, h3, h4, h5⟩ := h.waiter i w hw
    exact ⟨fun x => mono _ (h1 x), fun x => mono _ (h2 x), fun x => mono _ (h3 x), fun x => mono _ (h4 x),
      fun x => mono _ (h5 x)⟩
  have fut : e ≠ .set → (f.future = .done ∧ Ev.set ∈ past ++ [e]) ∨
      (f.future = .pending ∧ Ev.set ∉ past ++ [e]) := by
    intro he
    rcases h.future with ⟨h1, h2⟩ | ⟨h1, h2⟩
    · exact .inl ⟨h1, mono _ h2⟩
    · exact .inr ⟨h1, by simp [h2]; exact fun x => he x.symm⟩
  cases e with
  | wait =>
    refine ⟨_, rfl, fut (by simp), by simp [Flag.wait, waits_append, waits, h.length], ?_⟩
    intro i w hw
    unfold Flag.wait at hw
    dsimp only at hw
    rcases Nat.lt_or_ge i f.waiters.length with h1 | h1
    · rw [List.getElem?_append_left h1] at hw
      exact old i w hw
    · rw [List.getElem?_append_right h1] at hw
      rcases h2 : i - f.waiters.length with _ | n
      · rw [h2] at hw
        have hw := Option.some.inj hw
        subst hw
        rcases h.future with ⟨g1, g2⟩ | ⟨g1, g2⟩
        · simp [g1, g2, Fut.out]
        · simp [g1, g2, Fut.out]
      · rw [h2] at hw; simp at hw
  | set =>
    by_cases hp : f.future = .pending
    · refine ⟨{ f with future := .done }, by simp [Flag.step, Flag.set, hp, Fut.setResult], ?_⟩
      exact ⟨.inl ⟨rfl, by simp⟩, by simp [waits_append, waits, h.length], old⟩
    · refine ⟨f, by simp [Flag.step, Flag.set, hp], ?_⟩
      refine ⟨?_, by simp [waits_append, waits, h.length], old⟩
      rcases h.future with ⟨h1, h2⟩ | ⟨h1, h2⟩
      · exact .inl ⟨h1, mono _ h2⟩
      · exact absurd h1 hp
  | cancel i =>
    refine ⟨_, rfl, ?_, ?_, ?_⟩
    · rw [(at_length f i _).2]; exact fut (by simp)
    · rw [(at_length f i _).1, h.length]; simp [waits_append, waits]
    · intro j w hw
      rw [at_get] at hw
      split at hw
      · rename_i e
        subst e
        obtain ⟨w0, hw0, rfl⟩ := Option.map_eq_some_iff.1 hw
        obtain ⟨h1, h2, h3, h4, h5⟩ := old j w0 hw0
        unfold Waiter.cancel
        split
        · exact ⟨h1, h2, h3, h4, h5⟩
        · split
          · exact ⟨by simp, by simp, h3, h4, h5⟩
          · exact ⟨h1, h2, by simp, h4, h5⟩
      · exact old j w hw
  | callback i =>
    refine ⟨_, rfl, ?_, ?_, ?_⟩
    · rw [(at_length f i _).2]; exact fut (by simp)
    · rw [(at_length f i _).1, h.length]; simp [waits_append, waits]
    · intro j w hw
      rw [at_get] at hw
      split at hw
      · rename_i e
        subst e
        obtain ⟨w0, hw0, rfl⟩ := Option.map_eq_some_iff.1 hw
        obtain ⟨h1, h2, h3, h4, h5⟩ := old j w0 hw0
        unfold Waiter.callback
        split
        · rcases h.future with ⟨g1, g2⟩ | ⟨g1, g2⟩
          · exact ⟨fun _ => mono _ g2, by simp [g1], h3, h4, h5⟩
          · exact ⟨by simp [g1], by simp [g1], h3, h4, h5⟩
        · exact ⟨h1, h2, h3, h4, h5⟩
      · exact old j w hw
  | resume i =>
    refine ⟨_, rfl, ?_, ?_, ?_⟩
    · rw [(at_length f i _).2]; exact fut (by simp)
    · rw [(at_length f i _).1, h.length]; simp [waits_append, waits]
    · intro j w hw
      rw [at_get] at hw
      split at hw
      · rename_i e
        subst e
        obtain ⟨w0, hw0, rfl⟩ := Option.map_eq_some_iff.1 hw
        obtain ⟨h1, h2, h3, h4, h5⟩ := old j w0 hw0
        unfold Waiter.resume
        split
        · exact ⟨h1, h2, h3, h4, h5⟩
        · split
          · exact ⟨h1, h2, h3, h4, h5⟩
          · rename_i ho
            refine ⟨h1, h2, h3, fun _ => h1 ho, ?_⟩
            intro hc
            dsimp only at hc
            by_cases hm : w0.mustCancel = true
            · exact h3 hm
            · rw [if_neg hm] at hc; simp at hc
          · rename_i ho
            exact ⟨h1, h2, h3, by simp, fun _ => h2 ho⟩
      · exact old j w hw

private theorem ok_run {past : List Ev} {f : Flag} (hf : Ok past f) (h : List Ev) :
    ∃ f', f.run h = some f' ∧ Ok (past ++ h) f' := by
  induction h generalizing past f with
  | nil => exact ⟨f, rfl, by simpa using hf⟩
  | cons e h ih =>
    obtain ⟨f1, h1, h2⟩ := ok_step hf e
    obtain ⟨f2, h3, h4⟩ := ih h2
    refine ⟨f2, ?_, by simpa using h4⟩
    unfold Flag.run
    rw [h1]
    exact h3

private theorem ok_new : Ok [] Flag.new :=
  ⟨.inr ⟨rfl, by simp⟩, rfl, fun i w h => by simp [Flag.new] at h⟩

private theorem ok_history (h : List Ev) : ∃ f, Flag.new.run h = some f ∧ Ok h f := by
  simpa using ok_run ok_new h

/-! ### The property -/

/-- C185: setting a flag never raises, however often, and whatever those that wait for it do; the flag says that it is
set exactly after it was set. -/
theorem C185_set (h : List Ev) :
    ∃ f, Flag.new.run h = some f ∧ (f.isSet = true ↔ Ev.set ∈ h) := by
  obtain ⟨f, h1, h2⟩ := ok_history h
  refine ⟨f, h1, ?_⟩
  unfold Flag.isSet
  rcases h2.future with ⟨g1, g2⟩ | ⟨g1, g2⟩
  · simp [g1, g2]
  · simp [g1, g2]

/-- C185: whoever waits returns only after the flag was set, and is cancelled only if it was cancelled itself: one that
gives up does not disturb the others. -/
theorem C185_undisturbed (h : List Ev) (i : Nat) :
    (ended h i = some .returned → Ev.set ∈ h) ∧ (ended h i = some .cancelled → Ev.cancel i ∈ h) := by
  obtain ⟨f, h1, h2⟩ := ok_history h
  unfold ended
  rw [h1]
  dsimp only
  cases hw : f.waiters[i]? with
  | none => simp
  | some w =>
    obtain ⟨_, _, _, h6, h7⟩ := h2.waiter i w hw
    exact ⟨h6, h7⟩

/-- C185: once the flag is set, all that wait are released: as soon as the loop has come round, each has returned, or
was cancelled itself. -/
theorem C185_released (h : List Ev) (hs : Ev.set ∈ h) (i : Nat) (hi : i < waits h) :
    ended (h ++ [.callback i, .resume i]) i = some .returned ∨
    (ended (h ++ [.callback i, .resume i]) i = some .cancelled ∧ Ev.cancel i ∈ h) := by
  obtain ⟨f, h1, h2⟩ := ok_history h
  obtain ⟨f', h3, h4⟩ := ok_history (h ++ [.callback i, .resume i])
  have hrun : ∀ (g : Flag) (a b : List Ev) g', g.run a = some g' → g.run (a ++ b) = g'.run b := by
    intro g a
    induction a generalizing g with
    | nil => intro b g' hg; cases hg; rfl
    | cons e a ih =>
      intro b g' hg
      unfold Flag.run at hg
      rw [List.cons_append, Flag.run]
      cases hq : g.step e with
      | none => rw [hq] at hg; cases hg
      | some g1 => rw [hq] at hg; exact ih g1 b g' hg
  have hr := hrun Flag.new h [.callback i, .resume i] f h1
  rw [h3] at hr
  have hfut : f.future = .done := by
    rcases h2.future with ⟨g1, _⟩ | ⟨_, g2⟩
    · exact g1
    · exact absurd hs g2
  have hlt : i < f.waiters.length := by rw [h2.length]; exact hi
  obtain ⟨w, hw⟩ : ∃ w, f.waiters[i]? = some w := ⟨_, List.getElem?_eq_getElem hlt⟩
  have hw' : f'.waiters[i]? = some (Waiter.resume (Waiter.callback f.future w)) := by
    have : f' = (f.at i (Waiter.callback f.future)).at i Waiter.resume := Option.some.inj hr
    rw [this, at_get, if_pos rfl, at_get, if_pos rfl, hw]
    rfl
  have hend : ended (h ++ [.callback i, .resume i]) i = (Waiter.resume (Waiter.callback f.future w)).out := by
    unfold ended; rw [h3]; dsimp only; rw [hw']
  obtain ⟨_, _, _, _, g⟩ := h4.waiter i _ hw'
  have hsome : (Waiter.resume (Waiter.callback f.future w)).out ≠ none := by
    rw [hfut]
    unfold Waiter.callback
    split
    · unfold Waiter.resume
      split
      · rename_i ho; intro hn; rw [hn] at ho; cases ho
      · simp
    · rename_i ho
      unfold Waiter.resume
      split
      · rename_i ho; intro hn; rw [hn] at ho; cases ho
      · cases hx : w.outer with
        | pending => exact absurd hx ho
        | done => simp
        | cancelled => simp
  rw [hend]
  cases ho : (Waiter.resume (Waiter.callback f.future w)).out with
  | none => exact absurd ho hsome
  | some o =>
    cases o with
    | returned => exact .inl rfl
    | cancelled =>
      refine .inr ⟨rfl, ?_⟩
      have := g ho
      simpa using this

/-- C185: who waits for a flag that is set already does not wait. -/
theorem C185_late (h : List Ev) (hs : Ev.set ∈ h) : ended (h ++ [.wait]) (waits h) = some .returned := by
  obtain ⟨f, h1, h2⟩ := ok_history h
  have hfut : f.future = .done := by
    rcases h2.future with ⟨g1, _⟩ | ⟨_, g2⟩
    · exact g1
    · exact absurd hs g2
  have hrun : ∀ (a : List Ev) (g g' : Flag), g.run a = some g' → g.run (a ++ [.wait]) = some g'.wait := by
    intro a
    induction a with
    | nil => intro g g' hg; cases hg; rfl
    | cons e a ih =>
      intro g g' hg
      unfold Flag.run at hg
      rw [List.cons_append, Flag.run]
      cases hq : g.step e with
      | none => rw [hq] at hg; cases hg
      | some g1 => rw [hq] at hg; exact ih g1 g' hg
  unfold ended
  rw [hrun h _ f h1]
  dsimp only
  have : f.wait.waiters[waits h]? = some { outer := f.future, mustCancel := false, out := f.future.out } := by
    unfold Flag.wait
    dsimp only
    rw [← h2.length, List.getElem?_append_right (Nat.le_refl _), Nat.sub_self]
    rfl
  rw [this, hfut]
  rfl

/-- C185: a waiter that was cancelled while it waited, before the flag was set, ends as cancelled when it runs. -/
theorem C185_gives_up (h : List Ev) (hs : Ev.set ∉ h) (i : Nat) (hi : i < waits h) (he : ended h i = none) :
    ended (h ++ [.cancel i, .resume i]) i = some .cancelled := by
  obtain ⟨f, h1, h2⟩ := ok_history h
  have hrun : ∀ (a : List Ev) (g g' : Flag) (b : List Ev), g.run a = some g' → g.run (a ++ b) = g'.run b := by
    intro a
    induction a with
    | nil => intro g g' b hg; cases hg; rfl
    | cons e a ih =>
      intro g g' b hg
      unfold Flag.run at hg
      rw [List.cons_append, Flag.run]
      cases hq : g.step e with
      | none => rw [hq] at hg; cases hg
      | some g1 => rw [hq] at hg; exact ih g1 g' b hg
  have hlt : i < f.waiters.length := by rw [h2.length]; exact hi
  obtain ⟨w, hw⟩ : ∃ w, f.waiters[i]? = some w := ⟨_, List.getElem?_eq_getElem hlt⟩
  have hout : w.out = none := by
    unfold ended at he; rw [h1] at he; dsimp only at he; rw [hw] at he; exact he
  unfold ended
  rw [hrun h _ f _ h1]
  show (match ((f.at i Waiter.cancel).at i Waiter.resume).waiters[i]? with
    | some w => w.out | none => none) = _
  rw [at_get, if_pos rfl, at_get, if_pos rfl, hw]
  show (Waiter.resume (Waiter.cancel w)).out = _
  obtain ⟨g1, _⟩ := h2.waiter i w hw
  unfold Waiter.cancel
  rw [hout]
  simp only [Option.isSome_none, Bool.false_eq_true, if_false]
  split
  · simp [Waiter.resume, hout]
  · cases hx : w.outer with
    | pending => rename_i hp; exact absurd hx hp
    | done => exact absurd (g1 hx) hs
    | cancelled => simp [Waiter.resume, hout, hx]

/-- Three wait, the second gives up, the flag is set twice, and the third is cancelled when it is released but has not
run yet; a fourth comes late. -/
example : (List.range 4).map (ended [.wait, .wait, .wait, .cancel 1, .set, .resume 1, .callback 0, .callback 2, .set,
    .cancel 2, .resume 0, .resume 2, .wait]) =
    [some .returned, some .cancelled, some .cancelled, some .returned] := by decide

example : ended [.wait, .wait, .cancel 0, .resume 0, .callback 1, .resume 1] 1 = none := by decide

end Verif.Flag
