import Verif.Generate.Model

/-!
# C192: `generate-config` and the files that are there

Which file the command leaves behind, for every disk, every way other programs act meanwhile, and every moment at which
it may be killed.
-/

namespace Verif.Generate

/-- The state in which the command begins. -/
def fresh (d : Disk) : State := ⟨.begun, d⟩

/-- What a user is told: how the command ends, with nobody else at work. -/
def Ends (c : Call) (d : Disk) (e : At) (after : Disk) : Prop :=
  if d c.folder ≠ some .dir then e = .refused .noFolder ∧ after = d
  else if c.force = false ∧ d c.output ≠ none then e = .refused .present ∧ after = d
  else if d c.output = some .dir then e = .raised ∧ after = d
  else e = .done ∧ after c.output = some (.file c.text) ∧ ∀ p, p ≠ c.output → after p = d p

/-- In this history no other program touches the path. -/
def Untouched (h : List Step) (p : String) : Prop := ∀ v, Step.other p v ∉ h

theorem put_same (d : Disk) (p : String) (v : Option Node) : put d p v p = v := by simp [put]

theorem put_other (d : Disk) (p q : String) (v : Option Node) (h : q ≠ p) : put d p v q = d q := by simp [put, h]

theorem run_append (c : Call) (s : State) (a b : List Step) : run c s (a ++ b) = run c (run c s a) b := by
  simp [run, List.foldl_append]

/-- Write the rest of the text. -/
theorem write_rest (c : Call) (m : Nat) : ∀ (n : Nat) (d : Disk), n + m = c.text.length →
    d c.output = some (.file (c.text.take n)) →
    let s := run c ⟨.writing n, d⟩ (List.replicate (m + 1) .own)
    s.pos = .done ∧ s.disk c.output = some (.file c.text) ∧ ∀ p, p ≠ c.output → s.disk p = d p := by
  induction m with
  | zero =>
    intro n d hn hd
    have : n = c.text.length := by omega
    subst this
    simp [run, step, next] at hd ⊢
    exact hd
  | succ m ih =>
    intro n d hn hd
    have hlt : n < c.text.length := by omega
    have h1 : run c ⟨.writing n, d⟩ (List.replicate (m + 1 + 1) .own)
        = run c ⟨.writing (n + 1), put d c.output (some (.file (c.text.take (n + 1))))⟩ (List.replicate (m + 1) .own) := by
      rw [List.replicate_succ]
      simp [run, step, next, hlt]
    rw [h1]
    obtain ⟨a, b, e⟩ := ih (n + 1) (put d c.output (some (.file (c.text.take (n + 1))))) (by omega) (put_same _ _ _)
    exact ⟨a, b, fun p hp => by rw [e p hp, put_other _ _ _ _ hp]⟩

/-- A command that has ended stays as it is. -/
theorem stays (c : Call) (s : State) (k : Nat) (h : next c s = s) : run c s (List.replicate k .own) = s := by
  induction k with
  | zero => rfl
  | succ k ih =>
    rw [List.replicate_succ]
    show run c (next c s) (List.replicate k .own) = s
    rw [h, ih]

/-- **C192 (how it ends).** Left alone, the command ends as the user is told: it refuses when the directory is not there
or when, without `--force`, something has the name already; it fails when the name is a directory's; otherwise the file
holds the whole text. Whatever the end, no other path changes, and a refusal changes nothing. -/
theorem C192_exact (c : Call) (d : Disk) (k : Nat) (hk : c.text.length + 5 ≤ k) :
    Ends c d (run c (fresh d) (List.replicate k .own)).pos (run c (fresh d) (List.replicate k .own)).disk := by
  obtain ⟨j, rfl⟩ : ∃ j, k = j + 4 := ⟨k - 4, by omega⟩
  have h4 : List.replicate (j + 4) Step.own = [.own, .own, .own, .own] ++ List.replicate j .own := by
    simp [List.replicate_succ]
  rw [h4, run_append]
  unfold Ends
  by_cases h1 : d c.folder = some .dir
  · rw [if_neg (by simp [h1])]
    by_cases h2 : c.force = false ∧ d c.output ≠ none
    · rw [if_pos h2]
      have hp : present d c.output = true := by
        cases hx : d c.output with
        | none => exact absurd hx h2.2
        | some v => simp [present, hx]
      have : run c (fresh d) [.own, .own, .own, .own] = ⟨.refused .present, d⟩ := by
        simp [run, step, next, fresh, isDir, h1, hp, h2.1]
      rw [this, stays c _ _ rfl]
      exact ⟨rfl, rfl⟩
    · rw [if_neg h2]
      have hp : (present d c.output && !c.force) = false := by
        cases hf : c.force with
        | true => simp
        | false =>
          cases hx : d c.output with
          | none => simp [present, hx]
          | some v => exact absurd ⟨hf, by simp [hx]⟩ h2
      by_cases h3 : d c.output = some .dir
      · rw [if_pos h3]
        have : run c (fresh d) [.own, .own, .own, .own] = ⟨.raised, d⟩ := by
          have hd : isDir d c.folder = true := by simp [isDir, h1]
          simp only [run, step, next, fresh, List.foldl, hd, hp, h3, if_true, if_false, Bool.false_eq_true]
        rw [this, stays c _ _ rfl]
        exact ⟨rfl, rfl⟩
      · rw [if_neg h3]
        have : run c (fresh d) [.own, .own, .own, .own] = ⟨.writing 0, put d c.output (some (.file []))⟩ := by
          have hd : isDir d c.folder = true := by simp [isDir, h1]
          simp only [run, step, next, fresh, List.foldl, hd, hp, h3, if_true, if_false, Bool.false_eq_true]
        rw [this]
        obtain ⟨i, hi⟩ : ∃ i, j = (c.text.length + 1) + i := ⟨j - (c.text.length + 1), by omega⟩
        rw [hi, ← List.replicate_append_replicate, run_append]
        obtain ⟨a, b, e⟩ := write_rest c c.text.length 0 (put d c.output (some (.file []))) (by omega) (put_same _ _ _)
        rw [stays c _ i (by unfold next; rw [a])]
        exact ⟨a, b, fun p hp => by rw [e p hp, put_other _ _ _ _ hp]⟩
  · rw [if_pos h1]
    have : run c (fresh d) [.own, .own, .own, .own] = ⟨.refused .noFolder, d⟩ := by
      simp [run, step, next, fresh, isDir, h1]
    rw [this, stays c _ _ rfl]
    exact ⟨rfl, rfl⟩

theorem next_elsewhere (c : Call) (s : State) (p : String) (hp : p ≠ c.output) : (next c s).disk p = s.disk p := by
  unfold next
  split <;> (try split) <;> (try split) <;> simp [put, hp]

/-- **C192 (elsewhere).** At every moment, whatever others do, the command has changed no path but its own. -/
theorem C192_elsewhere (c : Call) (p : String) (hp : p ≠ c.output) (h : List Step) :
    ∀ s : State, Untouched h p → (run c s h).disk p = s.disk p := by
  induction h with
  | nil => intro s _; rfl
  | cons a t ih =>
    intro s hu
    have ht : Untouched t p := fun v hv => hu v (List.mem_cons_of_mem _ hv)
    show (run c (step c s a) t).disk p = s.disk p
    rw [ih _ ht]
    cases a with
    | own => exact next_elsewhere c s p hp
    | other q v =>
      have hq : p ≠ q := by
        intro e
        subst e
        exact hu v (List.mem_cons_self ..)
      exact put_other _ _ _ _ hq

/-- **C192 (kept, partial).** Without `--force`, what has the name when the command begins is still there, unchanged, at
every moment, wherever the command is killed, and whatever other programs do to other paths.

What is missing is a file that another program makes under the name after the command has looked
(`C192_race_violated`). -/
theorem C192_kept_partial (c : Call) (d : Disk) (x : Node) (hf : c.force = false) (hx : d c.output = some x)
    (h : List Step) (hu : Untouched h c.output) : (run c (fresh d) h).disk c.output = some x := by
  suffices H : ∀ s : State, (s.pos = .begun ∨ s.pos = .folderSeen ∨ ∃ w, s.pos = .refused w) →
      s.disk c.output = some x → Untouched h c.output → (run c s h).disk c.output = some x from
    H _ (Or.inl rfl) hx hu
  clear hu hx
  induction h with
  | nil => intro s _ hx _; exact hx
  | cons a t ih =>
    intro s hs hx hu
    have ht : Untouched t c.output := fun v hv => hu v (List.mem_cons_of_mem _ hv)
    show (run c (step c s a) t).disk c.output = some x
    cases a with
    | own =>
      have hp : (present s.disk c.output && !c.force) = true := by simp [present, hx, hf]
      rcases hs with e | e | ⟨w, e⟩
      · by_cases hd : isDir s.disk c.folder = true
        · have : step c s .own = { s with pos := .folderSeen } := by simp [step, next, e, hd]
          rw [this]
          exact ih _ (Or.inr (Or.inl rfl)) hx ht
        · have : step c s .own = { s with pos := .refused .noFolder } := by simp [step, next, e, hd]
          rw [this]
          exact ih _ (Or.inr (Or.inr ⟨_, rfl⟩)) hx ht
      · have : step c s .own = { s with pos := .refused .present } := by simp only [step, next, e, hp, if_true]
        rw [this]
        exact ih _ (Or.inr (Or.inr ⟨_, rfl⟩)) hx ht
      · have : step c s .own = s := by simp [step, next, e]
        rw [this]
        exact ih _ (Or.inr (Or.inr ⟨_, e⟩)) hx ht
    | other q v =>
      have hq : c.output ≠ q := by
        intro e
        subst e
        exact hu v (List.mem_cons_self ..)
      exact ih _ hs ((put_other _ _ _ _ hq).trans hx) ht

/-- **C192 (killed, partial).** Wherever the command is killed, its path holds what it held before or a beginning of the
text; and the whole text once the command is done.

What is missing is that it holds one or the other whole (`C192_killed_violated`). -/
theorem C192_killed_partial (c : Call) (d : Disk) (h : List Step) (hu : Untouched h c.output) :
    let s := run c (fresh d) h
    (s.disk c.output = d c.output ∨ ∃ n, s.disk c.output = some (.file (c.text.take n))) ∧
    (s.pos = .done → s.disk c.output = some (.file c.text)) := by
  suffices H : ∀ s : State,
      (match s.pos with
        | .writing n => s.disk c.output = some (.file (c.text.take n))
        | .done => s.disk c.output = some (.file c.text)
        | _ => s.disk c.output = d c.output) → Untouched h c.output →
      (match (run c s h).pos with
        | .writing n => (run c s h).disk c.output = some (.file (c.text.take n))
        | .done => (run c s h).disk c.output = some (.file c.text)
        | _ => (run c s h).disk c.output = d c.output) by
    have := H (fresh d) rfl hu
    intro s
    change (match s.pos with
        | .writing n => s.disk c.output = some (.file (c.text.take n))
        | .done => s.disk c.output = some (.file c.text)
        | _ => s.disk c.output = d c.output) at this
    cases hp : s.pos <;> rw [hp] at this
    case writing n => exact ⟨Or.inr ⟨n, this⟩, by simp⟩
    case done => exact ⟨Or.inr ⟨c.text.length, by rw [List.take_length]; exact this⟩, fun _ => this⟩
    all_goals exact ⟨Or.inl this, by simp⟩
  clear hu
  induction h with
  | nil => intro s hs _; exact hs
  | cons a t ih =>
    intro s hs hu
    have ht : Untouched t c.output := fun v hv => hu v (List.mem_cons_of_mem _ hv)
    refine ih (step c s a) ?_ ht
    cases a with
    | other q v =>
      have hq : c.output ≠ q := by
        intro e
        subst e
        exact hu v (List.mem_cons_self ..)
      have : (step c s (.other q v)).disk c.output = s.disk c.output := put_other _ _ _ _ hq
      rw [this]
      exact hs
    | own =>
      obtain ⟨pos, disk⟩ := s
      cases pos
      case begun =>
        by_cases hd : isDir disk c.folder = true <;>
          simp only [step, next, hd, if_true, if_false, Bool.false_eq_true] <;> exact hs
      case folderSeen =>
        by_cases hd : (present disk c.output && !c.force) = true <;>
          simp only [step, next, hd, if_true, if_false, Bool.false_eq_true] <;> exact hs
      case free => exact hs
      case generated =>
        by_cases h1 : disk c.output = some .dir
        · simp only [step, next, h1, if_true]
          exact h1.symm.trans hs
        · by_cases h2 : isDir disk c.folder = true
          · simp [step, next, h1, h2, put]
          · simp only [step, next, h1, h2, if_false, Bool.false_eq_true]
            exact hs
      case writing n =>
        by_cases hn : n < c.text.length
        · simp [step, next, hn, put]
        · simp only [step, next, hn, if_false]
          have hs : disk c.output = some (.file (c.text.take n)) := hs
          rw [hs, List.take_of_length_le (by omega)]
      all_goals exact hs

/-- A disk with one directory `/etc` and, perhaps, a file `/etc/c.py`. -/
def etc (v : Option Node) : Disk := fun p => if p = "/etc" then some .dir else if p = "/etc/c.py" then v else none

/-- The command for `/etc/c.py`, with a text of two characters. -/
def forEtc (force : Bool) : Call := ⟨"/etc/c.py", "/etc", force, ['b', 'c']⟩

/-- **C192 (race, violated).** Not every file is kept without `--force`: one that is made after the command has looked,
while it generates its text, is overwritten. -/
theorem C192_race_violated : ¬ ∀ (c : Call) (d : Disk) (before after : List Step) (x : Node), c.force = false →
    (∃ l, before = l ++ [.other c.output (some x)]) → Untouched after c.output →
    (∀ n, (run c (fresh d) before).pos ≠ .writing n) → (run c (fresh d) (before ++ after)).disk c.output = some x := by
  intro h
  have := h (forEtc false) (etc none) [.own, .own, .own, .other "/etc/c.py" (some (.file ['x']))] [.own] (.file ['x'])
    rfl ⟨[.own, .own, .own], rfl⟩ (by intro v; simp) (by intro n; simp [run, step, next, fresh, forEtc, etc, isDir, present])
  revert this
  decide +kernel

/-- **C192 (killed, violated).** With `--force`, a kill may leave a file that is neither the old one nor the new one: the
old contents are gone before the new ones are there. -/
theorem C192_killed_violated : ¬ ∀ (c : Call) (d : Disk) (h : List Step), Untouched h c.output →
    (run c (fresh d) h).disk c.output = d c.output ∨ (run c (fresh d) h).disk c.output = some (.file c.text) := by
  intro h
  have := h (forEtc true) (etc (some (.file ['x']))) [.own, .own, .own, .own] (by intro v; simp)
  revert this
  decide +kernel

/-- Not vacuous: the command writes a file that was not there, and with `--force` one that was; without, it refuses. -/
example : (run (forEtc false) (fresh (etc none)) (List.replicate 7 .own)).pos = .done ∧
    (run (forEtc false) (fresh (etc none)) (List.replicate 7 .own)).disk "/etc/c.py" = some (.file ['b', 'c']) ∧
    (run (forEtc true) (fresh (etc (some (.file ['x'])))) (List.replicate 7 .own)).disk "/etc/c.py"
      = some (.file ['b', 'c']) ∧
    (run (forEtc false) (fresh (etc (some (.file ['x'])))) (List.replicate 7 .own)).pos = .refused .present ∧
    (run (forEtc true) (fresh (etc (some .dir))) (List.replicate 7 .own)).pos = .raised ∧
    (run (forEtc true) (fresh (fun _ => none)) (List.replicate 7 .own)).pos = .refused .noFolder := by
  decide +kernel

/-- Not vacuous: the hypotheses of `C192_kept_partial` and `C192_killed_partial` are met while others are at work. -/
example : Untouched [.own, .other "/tmp/y" none, .own] (forEtc false).output ∧
    etc (some (.file ['x'])) (forEtc false).output = some (.file ['x']) := by
  refine ⟨?_, by decide +kernel⟩
  intro v
  simp [forEtc]

end Verif.Generate
