import Verif.Client.Life
/-! Properties C79 and C80: cluster objects of the client. -/
set_option linter.unusedSimpArgs false
set_option linter.unusedVariables false
namespace Verif.Client

private theorem snoc_ind {α : Type} {P : List α → Prop} (h0 : P []) (hs : ∀ l a, P l → P (l ++ [a]))
    (l : List α) : P l := by
  rw [← List.reverse_reverse l]
  induction l.reverse with
  | nil => exact h0
  | cons a r ih => rw [List.reverse_cons]; exact hs _ _ ih

private theorem run_snoc (o : Obj) (ops : List OOp) (op : OOp) : o.run (ops ++ [op]) = (o.run ops).step op := by
  unfold Obj.run; rw [List.foldl_append]; rfl

private theorem mem_stop {o : Obj} {s : Option Bool} {clean : Bool} {m : Str} :
    m ∈ (o.stop s clean).stops ↔ m ∈ o.stops ∨ (o.name = some m ∧ s.getD o.shutdownOnClose = true) := by
  unfold Obj.stop
  dsimp only
  cases hn : o.name with
  | none => simp
  | some n =>
    cases hs : s.getD o.shutdownOnClose with
    | false => simp
    | true => simp [eq_comm]

/-! ### C79 -/

/-- C79, in part: closing an object with shutdown (as asked for, or else as set up) requests the stop of
its cluster, in asynchronous mode always and else if the object is not closed yet. Missing: objects
closed before, and clusters whose name never arrived; see `C79_closed_violated` and
`C79_lost_violated`. -/
theorem C79_close_partial (o : Obj) (n : Str) (hn : o.name = some n) (shutdown : Option Bool) (clean : Bool)
    (hs : shutdown.getD o.shutdownOnClose = true) (hc : o.asynchronous = true ∨ o.status ≠ .closed) :
    n ∈ (o.close shutdown clean).stops := by
  unfold Obj.close
  split
  · exact mem_stop.2 (Or.inr ⟨hn, hs⟩)
  · rename_i ha
    split
    · rename_i hcl
      rcases hc with h | h
      · exact absurd h ha
      · exact absurd hcl h
    · exact mem_stop.2 (Or.inr ⟨hn, hs⟩)

/-- C79: if a new cluster does not come up then it is stopped, if the object is to shut it down. -/
theorem C79_failed_start (asynchronous : Bool) (n : Str) (clean : Bool) :
    n ∈ ((Obj.new asynchronous true none).start (.failed n) clean).stops :=
  mem_stop.2 (Or.inr ⟨rfl, rfl⟩)

private structure Inv (o : Obj) : Prop where
  own : ∀ m ∈ o.stops, o.name = some m
  closed : o.status = .created → o.stops = []

private theorem inv_stop {o : Obj} (h : Inv o) (s : Option Bool) (clean : Bool) : Inv (o.stop s clean) := by
  refine ⟨fun m hm => ?_, fun hst => ?_⟩
  · rcases mem_stop.1 hm with hm | ⟨hm, _⟩
    · exact h.own m hm
    · exact hm
  · exfalso
    unfold Obj.stop at hst
    dsimp only at hst
    split at hst
    · cases hst
    · split at hst <;> cases hst

private theorem inv_run (asynchronous shutdownOnClose : Bool) (name : Option Str) (ops : List OOp) :
    Inv ((Obj.new asynchronous shutdownOnClose name).run ops) := by
  induction ops using snoc_ind with
  | h0 => exact ⟨fun m hm => (by cases hm), fun _ => rfl⟩
  | hs l op ih =>
    rw [run_snoc]
    generalize (Obj.new asynchronous shutdownOnClose name).run l = o at ih
    have hclose : ∀ s clean, Inv (o.close s clean) := by
      intro s clean
      unfold Obj.close
      split
      · exact inv_stop ih _ _
      · split
        · exact ih
        · exact inv_stop ih _ _
    cases op with
    | start e clean =>
      change Inv (o.start e clean)
      unfold Obj.start
      split
      · exact ih
      · rename_i hc
        have he := ih.closed (Classical.not_not.1 hc)
        split
        · have hnil : ∀ (p : Obj), p.stops = o.stops → Inv p := fun p hp =>
            ⟨fun m hm => (by rw [hp, he] at hm; cases hm), fun _ => by rw [hp, he]⟩
          split
          · exact inv_stop ih _ _
          · refine inv_stop (hnil _ ?_) _ _
            rfl
          · refine inv_stop (hnil _ ?_) _ _
            rfl
          · exact hnil _ rfl
        · split
          · exact ⟨ih.own, fun hs => (by cases hs)⟩
          · exact inv_stop ih _ _
    | close s clean => exact hclose s clean
    | exit clean =>
      change Inv (o.exit clean)
      unfold Obj.exit
      split
      · exact hclose _ _
      · exact ih

/-- C79: an object requests the stop of no cluster but its own. -/
theorem C79_own (asynchronous shutdownOnClose : Bool) (name : Option Str) (ops : List OOp) (m : Str)
    (h : m ∈ ((Obj.new asynchronous shutdownOnClose name).run ops).stops) :
    ((Obj.new asynchronous shutdownOnClose name).run ops).name = some m :=
  (inv_run asynchronous shutdownOnClose name ops).own m h

private theorem socs (o : Obj) (s : Option Bool) (clean : Bool) :
    (o.stop s clean).shutdownOnClose = o.shutdownOnClose ∧ (o.stop s clean).asynchronous = o.asynchronous ∧
    (o.stop s clean).name = o.name ∧ (o.stop s clean).created = o.created ∧
    (o.stop s clean).lingering = false := ⟨rfl, rfl, rfl, rfl, rfl⟩

private theorem stops_same {o : Obj} {s : Option Bool} {clean : Bool} (h : s.getD o.shutdownOnClose = false) :
    (o.stop s clean).stops = o.stops := by
  unfold Obj.stop
  dsimp only
  cases o.name <;> simp [h]

/-- C79: an object that is not to shut its cluster down requests no stop unless told to. -/
theorem C79_only_asked (asynchronous : Bool) (name : Option Str) (ops : List OOp)
    (h : ∀ clean, OOp.close (some true) clean ∉ ops) :
    ((Obj.new asynchronous false name).run ops).stops = [] := by
  have : ((Obj.new asynchronous false name).run ops).shutdownOnClose = false ∧
      ((Obj.new asynchronous false name).run ops).stops = [] := by
    induction ops using snoc_ind with
    | h0 => exact ⟨rfl, rfl⟩
    | hs l op ih =>
      obtain ⟨i1, i2⟩ := ih (fun c hc => h c (List.mem_append.2 (Or.inl hc)))
      rw [run_snoc]
      generalize (Obj.new asynchronous false name).run l = o at i1 i2
      have hstop : ∀ s clean, s.getD false = false → (o.stop s clean).shutdownOnClose = false ∧
          (o.stop s clean).stops = [] := fun s clean hs => ⟨i1, by rw [stops_same (by rw [i1]; exact hs), i2]⟩
      have hclose : ∀ s clean, s.getD false = false → (o.close s clean).shutdownOnClose = false ∧
          (o.close s clean).stops = [] := by
        intro s clean hs
        unfold Obj.close
        split
        · exact hstop _ _ hs
        · split
          · exact ⟨i1, i2⟩
          · exact hstop _ _ hs
      cases op with
      | start e clean =>
        change (o.start e clean).shutdownOnClose = false ∧ (o.start e clean).stops = []
        unfold Obj.start
        split
        · exact ⟨i1, i2⟩
        · split
          · split
            · exact hstop _ _ rfl
            · exact ⟨i1, by rw [stops_same (by exact i1)]; exact i2⟩
            · exact ⟨i1, by rw [stops_same (by exact i1)]; exact i2⟩
            · exact ⟨i1, i2⟩
          · split
            · exact ⟨i1, i2⟩
            · exact hstop _ _ rfl
      | close s clean =>
        refine hclose s clean ?_
        cases s with
        | none => rfl
        | some b =>
          cases b with
          | false => rfl
          | true => exact absurd (by simp) (h clean)
      | exit clean =>
        change (o.exit clean).shutdownOnClose = false ∧ (o.exit clean).stops = []
        unfold Obj.exit
        split
        · exact hclose _ _ rfl
        · exact ⟨i1, i2⟩
  exact this.2

/-- C79, in part: a cluster of an object in synchronous mode that is to shut it down has been requested to
stop once the process ends, whatever was done with the object, unless the object was closed expressly
without shutdown. Missing: clusters whose name never arrived. -/
theorem C79_exit_partial (name : Option Str) (ops : List OOp) (clean : Bool) (n : Str)
    (hf : ∀ c, OOp.close (some false) c ∉ ops)
    (hn : ((Obj.new false true name).run (ops ++ [.exit clean])).name = some n) :
    n ∈ ((Obj.new false true name).run (ops ++ [.exit clean])).stops := by
  have key : ((Obj.new false true name).run ops).shutdownOnClose = true ∧
      ((Obj.new false true name).run ops).asynchronous = false ∧
      (((Obj.new false true name).run ops).lingering = true →
        ((Obj.new false true name).run ops).status = .created ∨
        ((Obj.new false true name).run ops).status = .running) ∧
      (((Obj.new false true name).run ops).lingering = false →
        ((Obj.new false true name).run ops).status ≠ .created ∧
        ∀ m, ((Obj.new false true name).run ops).name = some m → m ∈ ((Obj.new false true name).run ops).stops) := by
    clear hn
    induction ops using snoc_ind with
    | h0 => exact ⟨rfl, rfl, fun _ => Or.inl rfl, fun h => (by cases h)⟩
    | hs l op ih =>
      obtain ⟨i1, i2, i3, i4⟩ := ih (fun c hc => hf c (List.mem_append.2 (Or.inl hc)))
      rw [run_snoc]
      generalize (Obj.new false true name).run l = o at i1 i2 i3 i4
      have hst : ∀ (o : Obj) s clean, (o.stop s clean).status ≠ .created := by
        intro o s clean hst
        unfold Obj.stop at hst
        dsimp only at hst
        split at hst
        · cases hst
        · split at hst <;> cases hst
      have hstop : ∀ (o : Obj) s clean, o.shutdownOnClose = true → o.asynchronous = false →
          s.getD true = true →
          (o.stop s clean).shutdownOnClose = true ∧ (o.stop s clean).asynchronous = false ∧
          ((o.stop s clean).lingering = true →
            (o.stop s clean).status = .created ∨ (o.stop s clean).status = .running) ∧
          ((o.stop s clean).lingering = false → (o.stop s clean).status ≠ .created ∧
            ∀ m, (o.stop s clean).name = some m → m ∈ (o.stop s clean).stops) := by
        intro o s clean h1 h2 hs
        exact ⟨h1, h2, fun h => (by cases h), fun _ => ⟨hst _ _ _, fun m hm =>
          mem_stop.2 (Or.inr ⟨hm, by rw [h1]; exact hs⟩)⟩⟩
      have hclose : ∀ s clean, s.getD true = true →
          (o.close s clean).shutdownOnClose = true ∧ (o.close s clean).asynchronous = false ∧
          ((o.close s clean).lingering = true →
            (o.close s clean).status = .created ∨ (o.close s clean).status = .running) ∧
          ((o.close s clean).lingering = false → (o.close s clean).status ≠ .created ∧
            ∀ m, (o.close s clean).name = some m → m ∈ (o.close s clean).stops) := by
        intro s clean hs
        unfold Obj.close
        split
        · exact hstop _ _ _ i1 i2 hs
        · split
          · exact ⟨i1, i2, i3, i4⟩
          · exact hstop _ _ _ i1 i2 hs
      cases op with
      | start e c =>
        change (o.start e c).shutdownOnClose = true ∧ (o.start e c).asynchronous = false ∧
          ((o.start e c).lingering = true →
            (o.start e c).status = .created ∨ (o.start e c).status = .running) ∧
          ((o.start e c).lingering = false → (o.start e c).status ≠ .created ∧
            ∀ m, (o.start e c).name = some m → m ∈ (o.start e c).stops)
        unfold Obj.start
        split
        · exact ⟨i1, i2, i3, i4⟩
        · rename_i hc
          have hc := Classical.not_not.1 hc
          have hl : o.lingering ≠ false := fun h => (i4 h).1 hc
          split
          · split
            · exact hstop _ _ _ i1 i2 rfl
            · exact hstop _ _ _ i1 i2 rfl
            · exact hstop _ _ _ i1 i2 rfl
            · exact ⟨i1, i2, fun _ => Or.inr rfl, fun h => absurd h hl⟩
          · split
            · exact ⟨i1, i2, fun _ => Or.inr rfl, fun h => absurd h hl⟩
            · exact hstop _ _ _ i1 i2 rfl
      | close s c =>
        refine hclose s c ?_
        cases s with
        | none => rfl
        | some b =>
          cases b with
          | true => rfl
          | false => exact absurd (by simp) (hf c)
      | exit c =>
        change (o.exit c).shutdownOnClose = true ∧ (o.exit c).asynchronous = false ∧
          ((o.exit c).lingering = true →
            (o.exit c).status = .created ∨ (o.exit c).status = .running) ∧
          ((o.exit c).lingering = false → (o.exit c).status ≠ .created ∧
            ∀ m, (o.exit c).name = some m → m ∈ (o.exit c).stops)
        unfold Obj.exit
        split
        · exact hclose _ _ rfl
        · exact ⟨i1, i2, i3, i4⟩
  obtain ⟨i1, i2, i3, i4⟩ := key
  rw [run_snoc] at hn ⊢
  generalize (Obj.new false true name).run ops = o at i1 i2 i3 i4 hn
  change (o.exit clean).name = some n at hn
  change n ∈ (o.exit clean).stops
  unfold Obj.exit at hn ⊢
  cases hl : o.lingering with
  | true =>
    rw [if_pos ⟨hl, i2⟩] at hn
    rw [if_pos ⟨rfl, i2⟩]
    have hnc : o.status ≠ .closed := by
      rcases i3 hl with h | h <;> rw [h] <;> exact fun h => (by cases h)
    refine C79_close_partial o n ?_ none clean i1 (Or.inr hnc)
    unfold Obj.close at hn
    rw [if_neg (by rw [i2]; exact fun h => (by cases h)), if_neg hnc] at hn
    exact hn
  | false =>
    rw [if_neg (by rw [hl]; exact fun h => (by cases h.1))] at hn
    rw [if_neg (fun h => (by cases h.1))]
    exact (i4 hl).2 n hn

/-- C79 does not hold in full: if the answer to the submission is lost, or the caller interrupted before
it arrives, the cluster stays although the object is to shut it down. -/
theorem C79_lost_violated : ¬ ∀ (ops : List OOp) (n : Str),
    ((Obj.new false true none).run ops).created = some n →
    n ∈ ((Obj.new false true none).run (ops ++ [.close (some true) true, .exit true])).stops := by
  intro h
  have := h [.start (.lost ['a']) true] ['a'] rfl
  revert this
  decide

/-- C79 does not hold in full: in synchronous mode an object that was closed without shutdown does
nothing when it is told to shut its cluster down. -/
theorem C79_closed_violated : ¬ ∀ (ops : List OOp) (n : Str),
    ((Obj.new false true none).run ops).name = some n →
    n ∈ ((Obj.new false true none).run (ops ++ [.close (some true) true])).stops := by
  intro h
  have := h [.start (.running ['a']) true, .close (some false) true] ['a'] rfl
  revert this
  decide

/-- A cluster left running, one closed without shutdown and one of another user of the object. -/
example :
    ((Obj.new false true none).run [.start (.running ['a']) true, .exit true]).stops = [['a']] ∧
    ((Obj.new false true none).run [.start (.running ['a']) true, .close (some false) true, .exit true]).stops = [] ∧
    ((Obj.new true false (some ['b'])).run [.start (.running ['b']) true, .close none true]).stops = [] ∧
    ((Obj.new true false (some ['b'])).run [.start (.running ['b']) true, .close none true,
      .close (some true) true]).stops = [['b']] := by decide

/-! ### C80 -/

/-- Specification: what is known of a worker after some messages, from its own messages alone. -/
def knownOf {α : Type} (w : Str) (start : Option α) (msgs : List (WatchMsg α)) : Option α :=
  msgs.foldl (fun k m => match m with
    | .add ws => match (ws.reverse.find? (fun e => e.1 = w)) with
      | some e => some e.2
      | none => k
    | .remove w' => if w' = w then none else k) start

/-- Specification: the scheduler removes only workers that it had added. -/
def Sound {α : Type} (t : List (Str × α)) (msgs : List (WatchMsg α)) : Prop :=
  ∀ pre w post, msgs = pre ++ WatchMsg.remove w :: post → (knownOf w (lookup t w) pre).isSome = true

private theorem lookup_find {α : Type} (l : List (Str × α)) (w : Str) :
    lookup l w = (l.find? (fun e => e.1 = w)).map Prod.snd := by
  induction l with
  | nil => rfl
  | cons e l ih =>
    rw [lookup_cons, List.find?_cons]
    by_cases h : e.1 = w
    · simp [h]
    · simp [h, ih]

private theorem lookup_filter {α : Type} (l : List (Str × α)) (w w' : Str) :
    lookup (l.filter (fun e => e.1 ≠ w')) w = if w' = w then none else lookup l w := by
  induction l with
  | nil => simp
  | cons e l ih =>
    by_cases h : e.1 = w'
    · rw [List.filter_cons_of_neg (by simp [h]), ih, lookup_cons]
      by_cases h2 : w' = w
      · simp [h2]
      · rw [if_neg h2, if_neg h2, if_neg (by rw [h]; exact h2)]
    · rw [List.filter_cons_of_pos (by simp [h]), lookup_cons, lookup_cons, ih]
      by_cases h2 : w' = w
      · subst h2
        simp [h]
      · simp [h2]

private theorem step_known {α : Type} {t : List (Str × α)} {m : WatchMsg α} {t' : List (Str × α)}
    (h : watchStep t m = some t') (w : Str) : lookup t' w = knownOf w (lookup t w) [m] := by
  cases m with
  | add ws =>
    cases h
    rw [lookup_update, lookup_find]
    unfold knownOf
    simp only [List.foldl_cons, List.foldl_nil]
    cases ws.reverse.find? (fun e => decide (e.1 = w)) with
    | none => rfl
    | some e => rfl
  | remove w' =>
    replace h : (if (lookup t w').isSome then some (t.filter (fun e => e.1 ≠ w')) else none) = some t' := h
    split at h
    · cases h
      rw [lookup_filter]
      rfl
    · cases h

/-- C80: the table of workers has exactly what the scheduler last said of each. -/
theorem C80_table {α : Type} (t : List (Str × α)) (msgs : List (WatchMsg α)) (h : Sound t msgs) (w : Str) :
    lookup (watch t msgs) w = knownOf w (lookup t w) msgs := by
  induction msgs generalizing t with
  | nil => rfl
  | cons m l ih =>
    unfold watch
    have hs : ∃ t', watchStep t m = some t' := by
      cases m with
      | add ws => exact ⟨_, rfl⟩
      | remove w' =>
        have : (lookup t w').isSome = true := h [] w' l rfl
        exact ⟨_, if_pos this⟩
    obtain ⟨t', ht⟩ := hs
    rw [ht]
    dsimp only
    have hc : ∀ w (k : List (WatchMsg α)), knownOf w (lookup t w) (m :: k) = knownOf w (lookup t' w) k := by
      intro w k
      rw [step_known ht w]
      rfl
    rw [ih t' ?_, hc]
    intro pre w' post e
    rw [← hc]
    exact h (m :: pre) w' post (by rw [e]; rfl)

/-- Two workers come, one changes and one goes. -/
example :
    watch ([] : List (Str × Nat)) [.add [(['a'], 1), (['b'], 2)], .add [(['a'], 3)], .remove ['b']] = [(['a'], 3)] ∧
    knownOf ['a'] (none : Option Nat) [.add [(['a'], 1), (['b'], 2)], .add [(['a'], 3)], .remove ['b']] = some 3 := by
  decide

end Verif.Client
