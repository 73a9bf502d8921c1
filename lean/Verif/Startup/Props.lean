import Verif.Startup.Model
/-
C109: starts that fail or are interrupted.
-/
set_option linter.unusedSimpArgs false
set_option linter.unusedVariables false
namespace Verif.Startup

/-! ### Specification -/

/-- Everything that was started is stopped. -/
def Clean (o : Outcome) : Prop := ∀ r ∈ o.started, r ∈ o.stopped

/-- No cleanup step raises an exception of its own. -/
def NoErrors (raises : Res → Bool) : Prop := ∀ r, raises r = false

/-- The point up to which a start got. -/
def Ending.reached : Ending → Nat
  | .fails n => n
  | .signal n => n

/-! ### Cleanups in general -/

theorem cleanup_sub (has : List Res) (raises : Res → Bool) : ∀ (items : List Item) (n : Nat),
    ∀ r ∈ cleanup has raises items n, r ∈ has
  | [], n => by intro r h; unfold cleanup at h; cases h
  | i :: rest, 0 => by intro r h; unfold cleanup at h; cases h
  | i :: rest, n + 1 => by
    intro r h
    unfold cleanup at h
    by_cases h1 : i.res ∈ has
    · rw [if_pos h1] at h
      by_cases h2 : raises i.res = true
      · rw [if_pos h2] at h; cases h
      · rw [if_neg h2] at h
        rcases List.mem_cons.mp h with e | e
        · rw [e]; exact h1
        · exact cleanup_sub has raises rest n r e
    · rw [if_neg h1] at h
      by_cases h2 : i.guarded = true
      · rw [if_pos h2] at h; exact cleanup_sub has raises rest n r h
      · rw [if_neg h2] at h; cases h

/-- A cleanup whose unguarded items are there, and that meets no error, reaches every item. -/
theorem cleanup_all (has : List Res) (raises : Res → Bool) (hr : NoErrors raises) : ∀ (items : List Item) (n : Nat),
    items.length ≤ n → (∀ i ∈ items, i.guarded = false → i.res ∈ has) →
    ∀ i ∈ items, i.res ∈ has → i.res ∈ cleanup has raises items n
  | [], n, _, _, i, hi, _ => by cases hi
  | j :: rest, 0, hn, _, i, hi, _ => by simp at hn
  | j :: rest, n + 1, hn, hg, i, hi, hh => by
    have ih := cleanup_all has raises hr rest n (by simpa using hn) (fun x hx => hg x (by simp [hx]))
    unfold cleanup
    by_cases h1 : j.res ∈ has
    · rw [if_pos h1, if_neg (by rw [hr]; simp)]
      rcases List.mem_cons.mp hi with e | e
      · rw [e]; simp
      · exact List.mem_cons_of_mem _ (ih i e hh)
    · rw [if_neg h1]
      have hgj : j.guarded = true := by
        cases hx : j.guarded with
        | true => rfl
        | false => exact absurd (hg j (by simp) hx) h1
      rw [if_pos hgj]
      rcases List.mem_cons.mp hi with e | e
      · rw [e] at hh; exact absurd hh h1
      · exact ih i e hh

/-- Where an unguarded item is missing, nothing behind it is stopped. -/
theorem cleanup_stops (has : List Res) (raises : Res → Bool) (j : Item) (hj : j.guarded = false) (hm : j.res ∉ has) :
    ∀ (before after : List Item) (n : Nat) (r : Res), (∀ i ∈ before, i.res ≠ r) →
      r ∉ cleanup has raises (before ++ j :: after) n
  | [], after, 0, r, _ => by unfold cleanup; simp
  | [], after, n + 1, r, _ => by
    rw [List.nil_append]
    unfold cleanup
    rw [if_neg hm, if_neg (by rw [hj]; simp)]
    simp
  | i :: before, after, 0, r, _ => by rw [List.cons_append]; unfold cleanup; simp
  | i :: before, after, n + 1, r, hb => by
    have ih := cleanup_stops has raises j hj hm before after n r (fun x hx => hb x (by simp [hx]))
    rw [List.cons_append]
    unfold cleanup
    by_cases h1 : i.res ∈ has
    · rw [if_pos h1]
      by_cases h2 : raises i.res = true
      · rw [if_pos h2]; simp
      · rw [if_neg h2]
        intro h
        rcases List.mem_cons.mp h with e | e
        · exact hb i (by simp) e.symm
        · exact ih e
    · rw [if_neg h1]
      by_cases h2 : i.guarded = true
      · rw [if_pos h2]; exact ih
      · rw [if_neg h2]; simp

theorem main_started (starts : List Res) (items : List Item) (raises : Res → Bool) (e : Ending) (again : Option Nat) :
    (main starts items raises e again).started = starts.take e.reached := by
  cases e <;> rfl

theorem main_stopped (starts : List Res) (items : List Item) (raises : Res → Bool) (e : Ending) :
    (main starts items raises e none).stopped = cleanup (starts.take e.reached) raises items items.length := by
  cases e <;> rfl

/-- The criterion: every resource has an item, and the unguarded ones are there. -/
theorem clean_of (starts : List Res) (items : List Item) (raises : Res → Bool) (hr : NoErrors raises) (e : Ending)
    (h1 : ∀ r ∈ starts, ∃ i ∈ items, i.res = r)
    (h2 : ∀ i ∈ items, i.guarded = false → i.res ∈ starts.take e.reached) :
    Clean (main starts items raises e none) := by
  intro r hr'
  rw [main_started] at hr'
  rw [main_stopped]
  obtain ⟨i, hi, rfl⟩ := h1 r (List.mem_of_mem_take hr')
  exact cleanup_all _ raises hr items _ (Nat.le_refl _) h2 i hi hr'

/-! ### C109 -/

/-- C109 for the Kubernetes controller: whatever point its start reaches before it fails or is interrupted, or if it
is complete and a signal comes, everything that was started is stopped, and the exit code tells a failure from an
end on request. -/
theorem C109_controller (raises : Res → Bool) (hr : NoErrors raises) (e : Ending) :
    Clean (main controllerStarts controllerCleanup raises e none) ∧
      ((main controllerStarts controllerCleanup raises e none).exitCode = 1 ↔ ∃ n, e = .fails n) := by
  refine ⟨clean_of _ _ _ hr e (by decide) ?_, ?_⟩
  · intro i hi hg
    exfalso
    revert i
    decide
  · cases e with
    | fails n => exact ⟨fun _ => ⟨n, rfl⟩, fun _ => rfl⟩
    | signal n => exact ⟨fun h => (by cases h), fun ⟨m, h⟩ => (by cases h)⟩

/-- The start got past the point where the cleanup of the gateway relies on what it finds: the backend's session is
there, and on YARN the skein client. -/
def Past (hub : Bool) (k : Kind) (n : Nat) : Prop :=
  match k with
  | .db true => (authStarts hub).length + 6 ≤ n
  | _ => (authStarts hub).length + 1 ≤ n

theorem starts_have_items (hub : Bool) (k : Kind) : ∀ r ∈ gatewayStarts hub k, ∃ i ∈ gatewayCleanup hub k, i.res = r := by
  cases hub <;> rcases k with b | _ <;> (try cases b) <;> decide

theorem mem_take_mono {l : List Res} {m n : Nat} {r : Res} (h : m ≤ n) (hr : r ∈ l.take m) : r ∈ l.take n := by
  have : l.take m = (l.take n).take m := by rw [List.take_take, Nat.min_eq_left h]
  rw [this] at hr
  exact List.mem_of_mem_take hr

/-- C109, in part: a gateway whose start got as far as `Past`, in particular one that was complete, stops everything
it has started, whether the start failed, was interrupted or was complete; and the exit code tells a failure from an
end on request. Missing: see `C109_violated`, and cleanup steps that raise exceptions of their own. -/
theorem C109_partial (hub : Bool) (k : Kind) (raises : Res → Bool) (hr : NoErrors raises) (e : Ending)
    (hp : Past hub k e.reached) :
    Clean (main (gatewayStarts hub k) (gatewayCleanup hub k) raises e none) ∧
      ((main (gatewayStarts hub k) (gatewayCleanup hub k) raises e none).exitCode = 1 ↔ ∃ n, e = .fails n) := by
  refine ⟨clean_of _ _ _ hr e (starts_have_items hub k) ?_, ?_⟩
  · have key : ∀ n, Past hub k n → ∀ i ∈ gatewayCleanup hub k, i.guarded = false → i.res ∈ (gatewayStarts hub k).take n := by
      intro n hn i hi hg
      cases hub <;> rcases k with b | _ <;> (try cases b) <;>
        refine mem_take_mono hn ?_ <;> clear hp hn <;> revert hg <;> revert hi <;> revert i <;> decide
    exact key _ hp
  · cases e with
    | fails n => exact ⟨fun _ => ⟨n, rfl⟩, fun _ => rfl⟩
    | signal n => exact ⟨fun h => (by cases h), fun ⟨m, h⟩ => (by cases h)⟩

/-- A complete start is past that point. -/
theorem C109_complete (hub : Bool) (k : Kind) (n : Nat) (h : (gatewayStarts hub k).length ≤ n) : Past hub k n := by
  unfold Past
  cases hub <;> rcases k with b | _ <;> (try cases b) <;>
    simp only [gatewayStarts, authStarts, backendStarts, List.length_append, List.length_cons, List.length_nil, if_true,
      Bool.false_eq_true, if_false] at h ⊢ <;> omega

/-- C109 does not hold for the gateway: (1) if the JupyterHub authenticator opened its session and then fails (or the
start is interrupted, or the backend fails before its own session), the session is not closed; (2) on YARN, if the
skein client cannot be started, then the proxy process, the sessions and the proxy's tasks are not stopped by the
cleanup. This is so whatever the other cleanup steps do. -/
theorem C109_violated (raises : Res → Bool) :
    (∀ k, ¬ Clean (main (gatewayStarts true k) (gatewayCleanup true k) raises (.fails 1) none)) ∧
    (∀ hub r, r ∈ [Res.proxyProcess, .proxyTasks, .session] →
      r ∈ (main (gatewayStarts hub (.db true)) (gatewayCleanup hub (.db true)) raises (.fails ((authStarts hub).length + 5)) none).started ∧
      r ∉ (main (gatewayStarts hub (.db true)) (gatewayCleanup hub (.db true)) raises (.fails ((authStarts hub).length + 5)) none).stopped) := by
  refine ⟨?_, ?_⟩
  · intro k h
    have hs : Res.authSession ∈ (main (gatewayStarts true k) (gatewayCleanup true k) raises (.fails 1) none).started := by
      rw [main_started]
      rcases k with b | _ <;> (try cases b) <;> decide
    have hx := h _ hs
    rw [main_stopped] at hx
    have hsplit : gatewayCleanup true k =
        (⟨true, .runner⟩ :: (backendCleanup k).dropLast) ++ ⟨false, .session⟩ :: authCleanup true := by
      rcases k with b | _ <;> (try cases b) <;> decide
    have key := cleanup_stops ((gatewayStarts true k).take (Ending.fails 1).reached) raises ⟨false, .session⟩ rfl
      (by rcases k with b | _ <;> (try cases b) <;> decide)
      (⟨true, .runner⟩ :: (backendCleanup k).dropLast) (authCleanup true) (gatewayCleanup true k).length .authSession
      (by rcases k with b | _ <;> (try cases b) <;> decide)
    rw [← hsplit] at key
    exact key hx
  · intro hub r hr
    refine ⟨?_, ?_⟩
    · rw [main_started]
      revert r
      cases hub <;> decide
    · rw [main_stopped]
      have hsplit : gatewayCleanup hub (.db true) = [⟨true, .runner⟩, ⟨true, .background⟩, ⟨true, .reconcilers⟩] ++
          ⟨false, .skein⟩ :: ([⟨true, .proxyTasks⟩, ⟨true, .proxyProcess⟩, ⟨false, .session⟩] ++ authCleanup hub) := by
        cases hub <;> decide
      have key := cleanup_stops
        ((gatewayStarts hub (.db true)).take (Ending.fails ((authStarts hub).length + 5)).reached) raises ⟨false, .skein⟩ rfl
        (by cases hub <;> decide) [⟨true, .runner⟩, ⟨true, .background⟩, ⟨true, .reconcilers⟩]
        ([⟨true, .proxyTasks⟩, ⟨true, .proxyProcess⟩, ⟨false, .session⟩] ++ authCleanup hub)
        (gatewayCleanup hub (.db true)).length r
        (by
          simp only [List.mem_cons, List.not_mem_nil, or_false] at hr
          rcases hr with rfl | rfl | rfl <;> decide)
      rw [← hsplit] at key
      exact key

/-- C109: a second signal leaves the cleanup where it is: what is stopped is then only what the cleanup had reached. -/
theorem C109_second_signal (starts : List Res) (items : List Item) (raises : Res → Bool) (e : Ending) (n : Nat) (r : Res)
    (h : r ∈ (main starts items raises e (some n)).stopped) : ∃ i ∈ items.take n, i.res = r := by
  have key : ∀ (has : List Res) (items : List Item) (n : Nat), r ∈ cleanup has raises items n → ∃ i ∈ items.take n, i.res = r := by
    intro has items
    induction items with
    | nil => intro n h; unfold cleanup at h; cases h
    | cons i rest ih =>
      intro n h
      cases n with
      | zero => unfold cleanup at h; cases h
      | succ n =>
        have up : ∀ h' : r ∈ cleanup has raises rest n, ∃ j ∈ (i :: rest).take (n + 1), j.res = r := by
          intro h'
          obtain ⟨j, hj, e⟩ := ih n h'
          exact ⟨j, by rw [List.take_succ_cons]; exact List.mem_cons_of_mem _ hj, e⟩
        unfold cleanup at h
        by_cases h1 : i.res ∈ has
        · rw [if_pos h1] at h
          by_cases h2 : raises i.res = true
          · rw [if_pos h2] at h; cases h
          · rw [if_neg h2] at h
            rcases List.mem_cons.mp h with e' | e'
            · exact ⟨i, by rw [List.take_succ_cons]; simp, e'.symm⟩
            · exact up e'
        · rw [if_neg h1] at h
          by_cases h2 : i.guarded = true
          · rw [if_pos h2] at h; exact up h
          · rw [if_neg h2] at h; cases h
  cases e <;> exact key _ _ _ h

/-! Non-vacuity. -/

example : (main (gatewayStarts true (.db false)) (gatewayCleanup true (.db false)) (fun _ => false) (.fails 5) none) =
    ⟨1, [.authSession, .session, .reconcilers, .proxyTasks, .proxyProcess],
      [.reconcilers, .proxyTasks, .proxyProcess, .session, .authSession]⟩ := by decide
example : (main (gatewayStarts false .kube) (gatewayCleanup false .kube) (fun _ => false) (.signal 9) none) =
    ⟨0, [.session, .apiClient, .informers, .syncTask, .runner],
      [.runner, .informers, .syncTask, .apiClient, .session]⟩ := by decide
example : Past true (.db false) 2 := by unfold Past; decide

end Verif.Startup
