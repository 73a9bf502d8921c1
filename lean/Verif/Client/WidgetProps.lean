import Verif.Client.Widget
import Verif.Client.LifeProps
/-
C189: what a cluster object shows of its workers in a notebook.
-/
set_option linter.unusedSimpArgs false
namespace Verif.Client

/-! ### Specification -/

/-- The messages that arrive until the connection is lost. -/
def heard : List ViewEv → List (WatchMsg WorkerInfo)
  | [] => []
  | .batch msgs :: l => msgs ++ heard l
  | .lost :: _ => []
  | .display _ :: l => heard l

/-- The numbers of a status are those of the workers that the scheduler last said it has: `ws` are their names, each
once. -/
def Tells (start : Str → Option WorkerInfo) (msgs : List (WatchMsg WorkerInfo)) (s : Status) : Prop :=
  ∃ ws : List (Str × WorkerInfo), (ws.map (·.1)).Nodup ∧
    (∀ w i, (w, i) ∈ ws ↔ knownOf w (start w) msgs = some i) ∧
    s.workers = ws.length ∧ s.threads = (ws.map (·.2.nthreads)).sum ∧ s.memory = (ws.map (·.2.memory)).sum

/-! ### Lemmas -/

theorem batchLoop_watch (t : List (Str × WorkerInfo)) (msgs : List (WatchMsg WorkerInfo)) (h : Sound t msgs) :
    batchLoop t msgs = (watch t msgs, true) := by
  induction msgs generalizing t with
  | nil => rfl
  | cons m l ih =>
    have hs : ∃ t', watchStep t m = some t' := by
      cases m with
      | add ws => exact ⟨_, rfl⟩
      | remove w' =>
        have : (lookup t w').isSome = true := h [] w' l rfl
        exact ⟨_, if_pos this⟩
    obtain ⟨t', ht⟩ := hs
    unfold batchLoop watch
    rw [ht]
    dsimp only
    apply ih
    intro pre w post e
    have := h (m :: pre) w post (by rw [e]; rfl)
    have hm := C80_table t [m] (by
      intro pre w post e
      cases pre with
      | nil =>
        cases e
        exact h [] w l rfl
      | cons a pre =>
        simp at e) w
    unfold watch at hm
    rw [ht] at hm
    dsimp only [watch] at hm
    rw [hm]
    exact this

theorem watch_nodup (t : List (Str × WorkerInfo)) (msgs : List (WatchMsg WorkerInfo)) (h : (t.map (·.1)).Nodup) :
    ((watch t msgs).map (·.1)).Nodup := by
  induction msgs generalizing t with
  | nil => exact h
  | cons m l ih =>
    unfold watch
    cases m with
    | add ws => exact ih _ (nodup_update ws h)
    | remove w =>
      dsimp only [watchStep]
      split
      · exact h
      · rename_i t' ht
        split at ht
        · cases ht
          apply ih
          exact (List.Sublist.map _ List.filter_sublist).nodup h
        · cases ht

theorem watch_append (t : List (Str × WorkerInfo)) (a b : List (WatchMsg WorkerInfo)) (h : Sound t a) :
    watch t (a ++ b) = watch (watch t a) b := by
  induction a generalizing t with
  | nil => rfl
  | cons m a ih =>
    have e := batchLoop_watch t (m :: a) h
    rw [List.cons_append]
    conv => lhs; unfold watch
    unfold batchLoop at e
    cases ht : watchStep t m with
    | none => rw [ht] at e; simp at e
    | some t' =>
      conv => rhs; arg 1; unfold watch
      rw [ht]
      dsimp only
      apply ih
      intro pre w post e'
      have := h (m :: pre) w post (by rw [e']; rfl)
      have hm := C80_table t [m] (by
        intro pre w post e
        cases pre with
        | nil => cases e; exact h [] w a rfl
        | cons b pre => simp at e) w
      unfold watch at hm
      rw [ht] at hm
      dsimp only [watch] at hm
      rw [hm]
      exact this

theorem sound_left {t : List (Str × WorkerInfo)} {a b : List (WatchMsg WorkerInfo)} (h : Sound t (a ++ b)) : Sound t a := by
  intro pre w post e
  exact h pre w (post ++ b) (by rw [e]; simp)

theorem sound_right {t : List (Str × WorkerInfo)} {a b : List (WatchMsg WorkerInfo)} (h : Sound t (a ++ b)) :
    Sound (watch t a) b := by
  intro pre w post e
  have := h (a ++ pre) w post (by rw [e]; simp)
  rw [C80_table t a (sound_left h)]
  unfold knownOf at this ⊢
  rwa [List.foldl_append] at this

theorem tells_table (t : List (Str × WorkerInfo)) (msgs : List (WatchMsg WorkerInfo)) (hn : (t.map (·.1)).Nodup)
    (h : Sound t msgs) (s : Status) (hs : statusOf (some (watch t msgs)) = some s) : Tells (lookup t) msgs s := by
  cases hs
  refine ⟨watch t msgs, watch_nodup t msgs hn, ?_, rfl, rfl, rfl⟩
  intro w i
  rw [← C80_table t msgs h]
  exact ⟨lookup_of_mem (watch_nodup t msgs hn), mem_of_lookup⟩

/-- The table, and a status that fits it. -/
def Fits (v : View) (t : List (Str × WorkerInfo)) : Prop :=
  v.table = some t ∧ ∀ s, v.cached = .box s → s = statusOf (some t)

theorem fits_widget {v : View} {t : List (Str × WorkerInfo)} (h : Fits v t) (b : Bool) :
    Fits (v.widget b) t ∧ (v.widget b).watching = v.watching := by
  obtain ⟨ht, hc⟩ := h
  unfold View.widget
  split
  · split
    · exact ⟨⟨ht, hc⟩, rfl⟩
    · split
      · refine ⟨⟨ht, fun s hs => ?_⟩, rfl⟩
        cases hs
        rw [ht]
      · exact ⟨⟨ht, fun s hs => by cases hs⟩, rfl⟩
  · exact ⟨⟨ht, hc⟩, rfl⟩

theorem fits_ended (t : List (Str × WorkerInfo)) (evs : List ViewEv) : ∀ (v : View), v.watching = false → Fits v t →
    Fits (v.run evs) t := by
  induction evs with
  | nil => intro v _ h; exact h
  | cons e evs ih =>
    intro v hw h
    show Fits ((v.step e).run evs) t
    cases e with
    | batch msgs =>
      have : v.step (.batch msgs) = v := by
        unfold View.step
        simp [hw]
      rw [this]
      exact ih v hw h
    | lost => exact ih _ rfl h
    | display b => exact ih _ ((fits_widget h b).2.trans hw) (fits_widget h b).1

theorem fits_run (evs : List ViewEv) : ∀ (v : View) (t : List (Str × WorkerInfo)), v.watching = true → Fits v t →
    Sound t (heard evs) → Fits (v.run evs) (watch t (heard evs)) := by
  induction evs with
  | nil => intro v t _ h _; exact h
  | cons e evs ih =>
    intro v t hw h hs
    show Fits ((v.step e).run evs) _
    cases e with
    | batch msgs =>
      replace hs : Sound t (msgs ++ heard evs) := hs
      show Fits _ (watch t (msgs ++ heard evs))
      rw [watch_append t _ _ (sound_left hs)]
      have hstep : v.step (.batch msgs) = ({ v with table := some (watch t msgs) } : View).refresh := by
        unfold View.step
        dsimp only
        rw [if_pos hw, h.1]
        dsimp only
        rw [batchLoop_watch t msgs (sound_left hs)]
      rw [hstep]
      apply ih
      · unfold View.refresh
        split <;> exact hw
      · unfold View.refresh
        split
        · refine ⟨rfl, fun s hs => ?_⟩
          cases hs
          rfl
        · rename_i hb
          exact ⟨rfl, fun s hs => absurd hs (hb s)⟩
      · exact sound_right hs
    | lost => exact fits_ended t evs _ rfl h
    | display b => exact ih _ t ((fits_widget h b).2.trans hw) (fits_widget h b).1 hs

/-! ### C189 -/

/-- C189: at every point, what is shown of a cluster whose scheduler could be reached are the number, the threads and the
memory of exactly the workers that the scheduler had when it was last heard, each counted once. Partial: not for what
happens after the connection was lost, see `C189_lost_violated`. -/
theorem C189_numbers_partial (asynchronous : Bool) (t : List (Str × WorkerInfo)) (evs : List ViewEv) (s : Option Status)
    (hn : (t.map (·.1)).Nodup) (hs : Sound t (heard evs))
    (h : ((View.init asynchronous (some t)).run evs).shown = some s) :
    ∃ st, s = some st ∧ Tells (lookup t) (heard evs) st := by
  have hf := fits_run evs (View.init asynchronous (some t)) t rfl ⟨rfl, fun s hs => by cases hs⟩ hs
  unfold View.shown at h
  split at h
  · rename_i s' hc
    cases h
    have := hf.2 s hc
    exact ⟨_, this, tells_table t _ hn hs _ rfl⟩
  · cases h

theorem shown_stays (evs : List ViewEv) : ∀ (v : View), v.shown.isSome = true → (v.run evs).shown.isSome = true := by
  induction evs with
  | nil => intro v h; exact h
  | cons e evs ih =>
    intro v h
    apply ih
    cases hc : v.cached with
    | unset => rw [View.shown, hc] at h; cases h
    | missing => rw [View.shown, hc] at h; cases h
    | box s =>
      cases e with
      | batch msgs =>
        unfold View.step View.refresh
        dsimp only
        split
        · split
          · simp [View.shown, hc]
          · split <;> simp [View.shown, hc]
        · exact h
      | lost => simp [View.shown, View.step, hc]
      | display b => simp [View.shown, View.step, View.widget, hc]

theorem unset_stays (evs : List ViewEv) (hd : ∀ b, .display b ∉ evs) : ∀ (v : View), v.cached = .unset →
    (v.run evs).cached = .unset ∧ (v.run evs).asynchronous = v.asynchronous := by
  induction evs with
  | nil => intro v h; exact ⟨h, rfl⟩
  | cons e evs ih =>
    intro v h
    have hstep : (v.step e).cached = .unset ∧ (v.step e).asynchronous = v.asynchronous := by
      cases e with
      | batch msgs =>
        unfold View.step View.refresh
        dsimp only
        split
        · split
          · exact ⟨h, rfl⟩
          · split <;> simp [h]
        · exact ⟨h, rfl⟩
      | lost => exact ⟨h, rfl⟩
      | display b => exact absurd List.mem_cons_self (hd b)
    obtain ⟨h1, h2⟩ := ih (fun b hb => hd b (List.mem_cons_of_mem _ hb)) (v.step e) hstep.1
    exact ⟨h1, h2.trans hstep.2⟩

/-- C189: in a notebook with ipywidgets an object that is used without `asynchronous` shows the numbers from its first
display on, whenever this is. -/
theorem C189_displayed (answer : Option (List (Str × WorkerInfo))) (before after : List ViewEv)
    (hd : ∀ b, .display b ∉ before) :
    ((View.init false answer).run (before ++ .display true :: after)).shown.isSome = true := by
  unfold View.run
  rw [List.foldl_append]
  obtain ⟨h1, h2⟩ := unset_stays before hd (View.init false answer) rfl
  apply shown_stays after
  show (((View.init false answer).run before).step (.display true)).shown.isSome = true
  generalize (View.init false answer).run before = v at h1 h2
  replace h2 : v.asynchronous = false := h2
  simp [View.step, View.widget, View.shown, h1, h2]

/-- C189: no numbers are made up for a cluster whose scheduler could not be reached. -/
theorem C189_unreached (asynchronous : Bool) (evs : List ViewEv) (s : Option Status)
    (h : ((View.init asynchronous none).run evs).shown = some s) : s = none := by
  have key : ∀ (evs : List ViewEv) (v : View), v.watching = false → v.table = none →
      (∀ s, v.cached = .box s → s = none) → ∀ s, (v.run evs).cached = .box s → s = none := by
    intro evs
    induction evs with
    | nil => intro v _ _ h; exact h
    | cons e evs ih =>
      intro v hw ht hc
      show ∀ s, ((v.step e).run evs).cached = .box s → s = none
      cases e with
      | batch msgs =>
        have : v.step (.batch msgs) = v := by
          unfold View.step
          simp [hw]
        rw [this]
        exact ih v hw ht hc
      | lost => exact ih _ rfl ht hc
      | display b =>
        show ∀ s, ((v.widget b).run evs).cached = .box s → s = none
        unfold View.widget
        split
        · split
          · exact ih v hw ht hc
          · split
            · exact ih _ hw ht (fun s hs => by cases hs; rw [ht]; rfl)
            · exact ih _ hw ht (fun s hs => by cases hs)
        · exact ih v hw ht hc
  unfold View.shown at h
  split at h
  · rename_i s' hc
    cases h
    exact key evs _ rfl rfl (fun s hs => by cases hs) s hc
  · cases h

/-- All that the scheduler says, heard or not. -/
def said : List ViewEv → List (WatchMsg WorkerInfo)
  | [] => []
  | .batch msgs :: l => msgs ++ said l
  | _ :: l => said l

/-- C189 is not true as stated: after the connection to the scheduler was lost, the former numbers stay. Two workers are
shown, the connection is lost, both workers end. -/
theorem C189_lost_violated : ∃ (t : List (Str × WorkerInfo)) (evs : List ViewEv) (st : Status), (t.map (·.1)).Nodup ∧
    Sound t (said evs) ∧ ((View.init false (some t)).run evs).shown = some (some st) ∧ ¬ Tells (lookup t) (said evs) st := by
  refine ⟨[(['a'], ⟨2, 5⟩), (['b'], ⟨1, 7⟩)], [.display true, .lost, .batch [.remove ['a'], .remove ['b']]], ⟨2, 3, 12⟩,
    by decide, ?_, by decide, ?_⟩
  · intro pre w post e
    match pre, e with
    | [], e => cases e; decide
    | [_], e => cases e; decide
    | _ :: _ :: _, e => simp [said] at e
  · rintro ⟨ws, _, hk, hl, _⟩
    match ws, hl with
    | (w, i) :: _, _ =>
      have hkw := (hk w i).mp List.mem_cons_self
      revert hkw
      simp only [said, knownOf, List.append_nil, List.foldl_cons, List.foldl_nil, lookup_cons, lookup_nil]
      by_cases h1 : ['a'] = w
      · subst h1; simp
      · by_cases h2 : ['b'] = w
        · subst h2; simp
        · simp [h1, h2]

/-- Workers come and go while the numbers are shown. -/
example : ((View.init false (some [(['a'], ⟨2, 5⟩)])).run
    [.batch [.add [(['b'], ⟨1, 7⟩)]], .display true, .batch [.add [(['c'], ⟨4, 1⟩), (['a'], ⟨3, 5⟩)], .remove ['b']]]).shown =
    some (some ⟨2, 7, 6⟩) := by decide
example : ((View.init true (some [(['a'], ⟨2, 5⟩)])).run [.display true]).shown = none := by decide
example : ((View.init false none).run [.display true, .batch [.remove ['a']]]).shown = some none := by decide
example : ∀ b, ViewEv.display b ∉ [.batch [.remove ['a']], .lost] := by decide

/-- C189: a message that a worker left of which the object never heard ends the watching for good: whatever is said later, the
numbers stay as they are. -/
theorem C189_stuck (v : View) (t : List (Str × WorkerInfo)) (w : Str) (rest : List (WatchMsg WorkerInfo)) (s : Option Status)
    (hw : v.watching = true) (ht : v.table = some t) (hu : lookup t w = none) (hc : v.cached = .box s) (later : List ViewEv) :
    ((v.step (.batch (.remove w :: rest))).run later).table = some t ∧
      ((v.step (.batch (.remove w :: rest))).run later).shown = some s := by
  have h0 : v.step (.batch (.remove w :: rest)) = { v with table := some t, watching := false } := by
    simp [View.step, hw, ht, batchLoop, watchStep, hu]
  rw [h0]
  suffices H : ∀ u : View, u.watching = false → u.table = some t → u.cached = .box s →
      (u.run later).table = some t ∧ (u.run later).shown = some s from H _ rfl rfl hc
  clear h0
  induction later with
  | nil => intro u _ h1 h2; exact ⟨h1, by simp [View.run, View.shown, h2]⟩
  | cons e l ih =>
    intro u hu1 hu2 hu3
    show ((u.step e).run l).table = some t ∧ ((u.step e).run l).shown = some s
    cases e with
    | batch msgs =>
      have : u.step (.batch msgs) = u := by simp [View.step, hu1]
      rw [this]
      exact ih u hu1 hu2 hu3
    | lost => exact ih _ rfl hu2 hu3
    | display b =>
      have : u.step (.display b) = u := by simp [View.step, View.widget, hu3]
      rw [this]
      exact ih u hu1 hu2 hu3

/-- Not vacuous: such a message, after which a worker joins that is not counted. -/
example :
    let v : View := ⟨false, some [], true, .box (some ⟨0, 0, 0⟩)⟩
    ((v.step (.batch [.remove "w".toList])).run [.batch [.add [("x".toList, ⟨2, 8⟩)]]]).shown = some (some ⟨0, 0, 0⟩) ∧
    (v.run [.batch [.add [("x".toList, ⟨2, 8⟩)]]]).shown = some (some ⟨1, 2, 8⟩) := by
  decide +kernel

end Verif.Client
