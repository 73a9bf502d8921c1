import Verif.Supervise.Model
/-
C108: the proxy process.
-/
set_option linter.unusedSimpArgs false
set_option linter.unusedVariables false
namespace Verif.Supervise

/-! ### Specification -/

/-- The process is running. -/
def Proc.Alive (p : Proc) : Prop := p.died = none

/-- The proxy process that was started last is running. -/
def Running (s : State) : Prop := ∃ p ps, s.procs = p :: ps ∧ p.Alive

/-- The history of checks, read off the events: the time of the last one, and how many of the last ones
found no process and could not start one. -/
structure Checks where
  last : Nat
  fails : Nat
deriving DecidableEq

/-- How many of the last checks failed. -/
def failsOf : Option Checks → Nat
  | some c => c.fails
  | none => 0

/-- One more event: a check happens when the monitoring task is there and its sleep is over. -/
def Checks.next (s : State) (c : Option Checks) : Op → Option Checks
  | .wake ok =>
    match s.up, s.monitor with
    | true, some m =>
      if s.now < m.due then c
      else
        match s.procs with
        | [] => c
        | p :: _ =>
          if p.died.isSome ∧ ok = false then some { last := s.now, fails := failsOf c + 1 }
          else some { last := s.now, fails := 0 }
    | _, _ => c
  | _ => c

/-- The checks of a history, with the state. -/
def observe (period : Nat) (ops : List Op) : State × Option Checks :=
  ops.foldl (fun x o => (x.1.step period o, Checks.next x.1 x.2 o)) (State.init, none)

/-- The checks of a history. -/
def checks (period : Nat) (ops : List Op) : Option Checks := (observe period ops).2

/-! ### Invariants -/

private theorem snoc_ind {α : Type} {P : List α → Prop} (h0 : P []) (h1 : ∀ l a, P l → P (l ++ [a])) : ∀ l, P l := by
  intro l
  have : ∀ n (l : List α), l.length = n → P l := by
    intro n
    induction n with
    | zero => intro l hl; rw [List.eq_nil_of_length_eq_zero hl]; exact h0
    | succ n ih =>
      intro l hl
      rcases List.eq_nil_or_concat l with rfl | ⟨l', a, rfl⟩
      · exact h0
      · rw [List.concat_eq_append] at hl ⊢
        exact h1 l' a (ih l' (by simpa using hl))
  exact this _ l rfl

theorem observe_fst (period : Nat) (ops : List Op) : (observe period ops).1 = run period ops := by
  refine snoc_ind (P := fun ops => (observe period ops).1 = run period ops) rfl ?_ ops
  intro l a ih
  unfold observe run at ih ⊢
  rw [List.foldl_append, List.foldl_append, List.foldl_cons, List.foldl_nil, List.foldl_cons, List.foldl_nil, ← ih]

theorem run_snoc (period : Nat) (ops : List Op) (o : Op) : run period (ops ++ [o]) = (run period ops).step period o := by
  unfold run; rw [List.foldl_append]; rfl

theorem checks_snoc (period : Nat) (ops : List Op) (o : Op) :
    checks period (ops ++ [o]) = Checks.next (run period ops) (checks period ops) o := by
  unfold checks
  rw [← observe_fst]
  unfold observe
  rw [List.foldl_append]
  rfl

theorem modify_nil (f : Proc → Proc) (i : Nat) : modify f i [] = [] := by unfold modify; rfl

theorem mem_modify {f : Proc → Proc} {q : Proc} : ∀ {i : Nat} {l : List Proc}, q ∈ modify f i l →
    q ∈ l ∨ ∃ p ∈ l, q = f p
  | _, [], h => by rw [modify_nil] at h; cases h
  | 0, p :: ps, h => by
    rcases List.mem_cons.mp h with e | e
    · exact Or.inr ⟨p, by simp, e⟩
    · exact Or.inl (by simp [e])
  | i + 1, p :: ps, h => by
    rcases List.mem_cons.mp h with e | e
    · exact Or.inl (by simp [e])
    · rcases mem_modify e with h1 | ⟨r, h1, h2⟩
      · exact Or.inl (by simp [h1])
      · exact Or.inr ⟨r, by simp [h1], h2⟩

theorem modify_length (f : Proc → Proc) : ∀ (i : Nat) (l : List Proc), (modify f i l).length = l.length
  | _, [] => by unfold modify; rfl
  | 0, p :: ps => rfl
  | i + 1, p :: ps => by simp [modify, modify_length f i ps]

theorem die_dead (t : Nat) (p : Proc) (h : p.died.isSome = true) : (p.die t).died = p.died := by
  unfold Proc.die
  cases hd : p.died with
  | none => rw [hd] at h; cases h
  | some d => rfl

theorem read_dead (t : Nat) (p : Proc) (h : p.died.isSome = true) : (p.read t).died = p.died := by
  unfold Proc.read
  by_cases hc : p.signalled ∨ p.stdin = false
  · rw [if_pos hc]; exact die_dead t p h
  · rw [if_neg hc]

/-- A change of a process in the list that does not bring back dead ones keeps all but the first dead. -/
theorem tail_dead (f : Proc → Proc) (hf : ∀ p, p.died.isSome = true → (f p).died = p.died) (i : Nat) (l : List Proc)
    (h : ∀ p ∈ l.tail, p.died.isSome = true) : ∀ p ∈ (modify f i l).tail, p.died.isSome = true := by
  cases l with
  | nil => intro p hp; rw [modify_nil] at hp; cases hp
  | cons a l =>
    cases i with
    | zero => exact h
    | succ i =>
      intro p hp
      rcases mem_modify (show p ∈ modify f i l from hp) with h1 | ⟨r, h1, h2⟩
      · exact h p h1
      · rw [h2, hf r (h r h1)]; exact h r h1

/-- The cases of a check. -/
theorem check_cases (period now : Nat) (ok : Bool) (p : Proc) (ps : List Proc) (m : Monitor) :
    (p.died.isSome = true ∧ ok = true ∧ check period now ok (p :: ps) m =
      (Proc.fresh :: p :: ps, { due := now + period, backoff := defaultBackoff })) ∨
    (p.died.isSome = true ∧ ok = false ∧ check period now ok (p :: ps) m =
      (p :: ps, { due := now + m.backoff, backoff := min (m.backoff * 2) maxBackoff })) ∨
    (p.died = none ∧ check period now ok (p :: ps) m = (p :: ps, { due := now + period, backoff := defaultBackoff })) := by
  unfold check
  dsimp only
  by_cases h : p.died.isSome = true
  · rw [if_pos h]
    cases ok
    · exact Or.inr (Or.inl ⟨h, rfl, rfl⟩)
    · exact Or.inl ⟨h, rfl, rfl⟩
  · rw [if_neg h]
    exact Or.inr (Or.inr ⟨by cases hd : p.died with | none => rfl | some d => rw [hd] at h; exact absurd rfl h, rfl⟩)

/-- What a wake-up does. -/
theorem wake_cases (period : Nat) (s : State) (ok : Bool) :
    (∃ m, s.up = true ∧ s.monitor = some m ∧ m.due ≤ s.now ∧ s.step period (.wake ok) =
      { now := s.now, procs := (check period s.now ok s.procs m).1,
        monitor := some (check period s.now ok s.procs m).2, up := s.up }) ∨
    s.step period (.wake ok) = s ∧ ∀ m, s.up = true → s.monitor = some m → s.now < m.due := by
  unfold State.step
  cases hu : s.up with
  | false => exact Or.inr ⟨rfl, fun m h => by cases h⟩
  | true =>
    cases hm : s.monitor with
    | none => exact Or.inr ⟨rfl, fun m _ h => by cases h⟩
    | some m =>
      dsimp only
      by_cases h : s.now < m.due
      · rw [if_pos h]
        exact Or.inr ⟨rfl, fun m' _ e => by injection e with e; rw [← e]; exact h⟩
      · rw [if_neg h]
        exact Or.inl ⟨m, rfl, rfl, by omega, rfl⟩

structure Inv (s : State) : Prop where
  some : s.procs ≠ []
  tail : ∀ p ∈ s.procs.tail, p.died.isSome = true
  stdin : s.up = false → ∀ p ∈ s.procs, p.stdin = false
  mon : s.up = false → s.monitor = none

theorem modify_ne_nil (f : Proc → Proc) (i : Nat) (l : List Proc) (h : l ≠ []) : modify f i l ≠ [] := by
  intro e
  have := modify_length f i l
  rw [e] at this
  exact h (List.eq_nil_of_length_eq_zero this.symm)

theorem die_stdin (t : Nat) (p : Proc) : (p.die t).stdin = p.stdin := rfl

theorem read_stdin (t : Nat) (p : Proc) : (p.read t).stdin = p.stdin := by
  unfold Proc.read
  by_cases hc : p.signalled ∨ p.stdin = false
  · rw [if_pos hc]; rfl
  · rw [if_neg hc]

theorem inv_step (period : Nat) (s : State) (o : Op) (h : Inv s) : Inv (s.step period o) := by
  cases o with
  | wait ms => exact ⟨h.some, h.tail, h.stdin, h.mon⟩
  | exits i =>
    refine ⟨modify_ne_nil _ _ _ h.some, tail_dead _ (die_dead s.now) _ _ h.tail, ?_, h.mon⟩
    intro hu p hp
    rcases mem_modify hp with h1 | ⟨r, h1, h2⟩
    · exact h.stdin hu p h1
    · rw [h2, die_stdin]; exact h.stdin hu r h1
  | wake ok =>
    rcases wake_cases period s ok with ⟨m, hu, hm, _, e⟩ | ⟨e, _⟩
    · rw [e]
      cases hp : s.procs with
      | nil => exact absurd hp h.some
      | cons p ps =>
        have ht := h.tail
        rw [hp] at ht
        rcases check_cases period s.now ok p ps m with ⟨c1, c2, c3⟩ | ⟨c1, c2, c3⟩ | ⟨c1, c3⟩ <;> rw [c3]
        · refine ⟨by simp, ?_, fun h' => (by rw [hu] at h'; cases h'), fun h' => (by rw [hu] at h'; cases h')⟩
          intro q hq
          rcases List.mem_cons.mp (show q ∈ p :: ps from hq) with e | e
          · rw [e]; exact c1
          · exact ht q e
        · exact ⟨by simp, ht, fun h' => (by rw [hu] at h'; cases h'), fun h' => (by rw [hu] at h'; cases h')⟩
        · exact ⟨by simp, ht, fun h' => (by rw [hu] at h'; cases h'), fun h' => (by rw [hu] at h'; cases h')⟩
    · rw [e]; exact h
  | close =>
    unfold State.step
    dsimp only
    by_cases hu : s.up = true
    · rw [if_pos hu]; exact ⟨h.some, h.tail, h.stdin, fun _ => rfl⟩
    · rw [if_neg hu]; exact h
  | terminate =>
    unfold State.step
    dsimp only
    by_cases hu : s.up = true
    · rw [if_pos hu]
      refine ⟨modify_ne_nil _ _ _ h.some, tail_dead (fun p => ⟨p.died, true, p.stdin⟩) (fun _ _ => rfl) _ _ h.tail, fun h' => (by rw [hu] at h'; cases h'), h.mon⟩
    · rw [if_neg hu]; exact h
  | ends =>
    refine ⟨?_, ?_, ?_, fun _ => rfl⟩
    · intro e
      exact h.some (List.map_eq_nil_iff.mp e)
    · intro q hq
      rw [show (s.step period .ends).procs.tail = s.procs.tail.map (fun p => (⟨p.died, p.signalled, false⟩ : Proc)) from
        (List.map_tail ..).symm] at hq
      obtain ⟨r, hr, e⟩ := List.mem_map.mp hq
      rw [← e]
      exact h.tail r hr
    · intro _ q hq
      obtain ⟨r, hr, e⟩ := List.mem_map.mp hq
      rw [← e]
  | reads i =>
    refine ⟨modify_ne_nil _ _ _ h.some, tail_dead _ (read_dead s.now) _ _ h.tail, ?_, h.mon⟩
    intro hu p hp
    rcases mem_modify hp with h1 | ⟨r, h1, h2⟩
    · exact h.stdin hu p h1
    · rw [h2, read_stdin]; exact h.stdin hu r h1

theorem inv_run (period : Nat) (ops : List Op) : Inv (run period ops) := by
  refine snoc_ind (P := fun ops => Inv (run period ops)) ?_ ?_ ops
  · refine ⟨by simp [run, State.init], ?_, ?_, ?_⟩
    · intro p hp; cases hp
    · intro h; cases h
    · intro h; cases h
  · intro l a ih
    rw [run_snoc]
    exact inv_step _ _ _ ih

/-! ### C108 -/

/-- C108: at most one proxy process runs at any time: those started before the last one have ended. -/
theorem C108_one (period : Nat) (ops : List Op) (p : Proc) (ps : List Proc) (h : (run period ops).procs = p :: ps) :
    ∀ q ∈ ps, ¬ q.Alive := by
  intro q hq ha
  have := (inv_run period ops).tail q (by rw [h]; exact hq)
  rw [ha] at this
  cases this

/-- How long the monitoring task sleeps after its last check. -/
def pause (period fails : Nat) : Nat := if fails = 0 then period else min (500 * 2 ^ (fails - 1)) 15000

structure Timing (period : Nat) (s : State) (c : Option Checks) : Prop where
  due : ∀ m, s.monitor = some m → match c with
    | none => m.due = 0 ∧ m.backoff = 500
    | some c => m.due = c.last + pause period c.fails ∧ m.backoff = min (500 * 2 ^ c.fails) 15000
  past : ∀ c', c = some c' → c'.last ≤ s.now
  dead : ∀ p ps d c', s.procs = p :: ps → p.died = some d → c = some c' → c'.fails = 0 → c'.last ≤ d
  alive : ∀ p ps, s.procs = p :: ps → p.died = none → ∀ c', c = some c' → s.monitor ≠ none → c'.fails = 0

theorem Timing.congr {period : Nat} {s s' : State} {c : Option Checks} (h : Timing period s c)
    (hm : ∀ m, s'.monitor = some m → s.monitor = some m) (hn : s.now ≤ s'.now)
    (hp : ∀ p ps, s'.procs = p :: ps → ∃ q qs, s.procs = q :: qs ∧ (p.died = q.died ∨ (q.died = none ∧ p.died = some s.now))) :
    Timing period s' c := by
  refine ⟨fun m e => h.due m (hm m e), fun c' e => Nat.le_trans (h.past c' e) hn, ?_, ?_⟩
  · intro p ps d c' e hd hc hf
    obtain ⟨q, qs, e', hq⟩ := hp p ps e
    rcases hq with hq | ⟨hq1, hq2⟩
    · exact h.dead q qs d c' e' (by rw [← hq, hd]) hc hf
    · rw [hd] at hq2
      injection hq2 with hq2
      rw [hq2]; exact h.past c' hc
  · intro p ps e hd c' hc hmn
    obtain ⟨q, qs, e', hq⟩ := hp p ps e
    have hmn' : s.monitor ≠ none := by
      cases hx : s'.monitor with
      | none => exact absurd hx hmn
      | some m => rw [hm m hx]; exact fun h => by cases h
    rcases hq with hq | ⟨hq1, hq2⟩
    · exact h.alive q qs e' (by rw [← hq, hd]) c' hc hmn'
    · rw [hd] at hq2; cases hq2

theorem modify_head {f : Proc → Proc} {i : Nat} {l : List Proc} {p : Proc} {ps : List Proc} (h : modify f i l = p :: ps) :
    ∃ q qs, l = q :: qs ∧ (p = q ∨ p = f q) := by
  cases l with
  | nil => unfold modify at h; cases h
  | cons q qs =>
    refine ⟨q, qs, rfl, ?_⟩
    cases i with
    | zero => injection h with h _; exact Or.inr h.symm
    | succ i => injection h with h _; exact Or.inl h.symm

theorem die_cases (t : Nat) (q : Proc) : (q.die t).died = q.died ∨ (q.died = none ∧ (q.die t).died = some t) := by
  unfold Proc.die
  cases hd : q.died with
  | none => exact Or.inr ⟨rfl, rfl⟩
  | some d => exact Or.inl rfl

theorem read_cases (t : Nat) (q : Proc) : (q.read t).died = q.died ∨ (q.died = none ∧ (q.read t).died = some t) := by
  unfold Proc.read
  by_cases hc : q.signalled ∨ q.stdin = false
  · rw [if_pos hc]; exact die_cases t q
  · rw [if_neg hc]; exact Or.inl rfl

theorem min_double (n : Nat) : min (min (500 * 2 ^ n) 15000 * 2) 15000 = min (500 * 2 ^ (n + 1)) 15000 := by
  rw [Nat.pow_succ]; omega

theorem timing (period : Nat) (ops : List Op) : Timing period (run period ops) (checks period ops) := by
  refine snoc_ind (P := fun ops => Timing period (run period ops) (checks period ops)) ?_ ?_ ops
  · refine ⟨?_, ?_, ?_, ?_⟩
    · intro m e
      injection e with e
      subst e
      exact ⟨rfl, rfl⟩
    · intro c e; cases e
    · intro p ps d c e hd hc; cases hc
    · intro p ps e hd c hc; cases hc
  · intro l o ih
    rw [run_snoc, checks_snoc]
    have hi := inv_run period l
    revert ih hi
    generalize run period l = s
    generalize checks period l = c
    intro ih hi
    cases o with
    | wait ms =>
      exact ih.congr (fun m e => e) (Nat.le_add_right _ _) (fun p ps e => ⟨p, ps, e, Or.inl rfl⟩)
    | exits i =>
      refine ih.congr (fun m e => e) (Nat.le_refl _) ?_
      intro p ps e
      obtain ⟨q, qs, e', hq⟩ := modify_head (show modify (Proc.die s.now) i s.procs = p :: ps from e)
      refine ⟨q, qs, e', ?_⟩
      rcases hq with rfl | rfl
      · exact Or.inl rfl
      · exact die_cases s.now q
    | wake ok =>
      rcases wake_cases period s ok with ⟨m, hu, hm, hdue, e⟩ | ⟨e, hno⟩
      · rw [e]
        cases hp : s.procs with
        | nil => exact absurd hp hi.some
        | cons p ps =>
          have hd := ih.due m hm
          have hc : Checks.next s c (.wake ok) =
              (if p.died.isSome ∧ ok = false then some { last := s.now, fails := failsOf c + 1 }
               else some { last := s.now, fails := 0 }) := by
            unfold Checks.next
            rw [hu, hm, hp]
            dsimp only
            rw [if_neg (by omega)]
          rw [hc]
          have hb : m.backoff = min (500 * 2 ^ failsOf c) 15000 := by
            cases c with
            | none => rw [hd.2]; rfl
            | some c => exact hd.2
          rcases check_cases period s.now ok p ps m with ⟨c1, c2, c3⟩ | ⟨c1, c2, c3⟩ | ⟨c1, c3⟩ <;> rw [c3]
          · rw [if_neg (by rw [c2]; simp)]
            refine ⟨?_, ?_, ?_, ?_⟩
            · intro m' e; injection e with e; subst e; exact ⟨rfl, rfl⟩
            · intro c' e; injection e with e; subst e; exact Nat.le_refl _
            · intro q qs d c' e hd' _ _
              injection e with e _
              rw [← e] at hd'; cases hd'
            · intro q qs e hd' c' e' _; injection e' with e'; subst e'; rfl
          · rw [if_pos ⟨c1, c2⟩]
            refine ⟨?_, ?_, ?_, ?_⟩
            · intro m' e
              injection e with e
              subst e
              dsimp only
              refine ⟨?_, ?_⟩
              · rw [hb]; unfold pause; rw [if_neg (by omega), Nat.add_sub_cancel]
              · rw [hb]; exact min_double _
            · intro c' e; injection e with e; subst e; exact Nat.le_refl _
            · intro q qs d c' e hd' e' hf; injection e' with e'; subst e'; cases hf
            · intro q qs e hd' c' e' _
              injection e with e _
              rw [← e] at hd'; rw [hd'] at c1; cases c1
          · rw [if_neg (by rw [c1]; simp)]
            refine ⟨?_, ?_, ?_, ?_⟩
            · intro m' e; injection e with e; subst e; exact ⟨rfl, rfl⟩
            · intro c' e; injection e with e; subst e; exact Nat.le_refl _
            · intro q qs d c' e hd' _ _
              injection e with e _
              rw [← e, c1] at hd'; cases hd'
            · intro q qs e hd' c' e' _; injection e' with e'; subst e'; rfl
      · have hc : Checks.next s c (.wake ok) = c := by
          unfold Checks.next
          cases hu : s.up with
          | false => rfl
          | true =>
            cases hm : s.monitor with
            | none => rfl
            | some m => dsimp only; rw [if_pos (hno m hu hm)]
        rw [e, hc]; exact ih
    | close =>
      have hc : Checks.next s c .close = c := rfl
      rw [hc]
      unfold State.step
      dsimp only
      by_cases hu : s.up = true
      · rw [if_pos hu]
        exact ih.congr (fun m e => by cases e) (Nat.le_refl _) (fun p ps e => ⟨p, ps, e, Or.inl rfl⟩)
      · rw [if_neg hu]; exact ih
    | terminate =>
      have hc : Checks.next s c .terminate = c := rfl
      rw [hc]
      unfold State.step
      dsimp only
      by_cases hu : s.up = true
      · rw [if_pos hu]
        refine ih.congr (fun m e => e) (Nat.le_refl _) ?_
        intro p ps e
        obtain ⟨q, qs, e', hq⟩ := modify_head e
        refine ⟨q, qs, e', Or.inl ?_⟩
        rcases hq with rfl | rfl <;> rfl
      · rw [if_neg hu]; exact ih
    | ends =>
      refine ih.congr (fun m e => by cases e) (Nat.le_refl _) ?_
      intro p ps e
      cases hp : s.procs with
      | nil => exact absurd hp hi.some
      | cons q qs =>
        rw [show (s.step period .ends).procs = s.procs.map (fun p => (⟨p.died, p.signalled, false⟩ : Proc)) from rfl, hp] at e
        injection e with e _
        exact ⟨q, qs, rfl, Or.inl (by rw [← e])⟩
    | reads i =>
      refine ih.congr (fun m e => e) (Nat.le_refl _) ?_
      intro p ps e
      obtain ⟨q, qs, e', hq⟩ := modify_head (show modify (Proc.read s.now) i s.procs = p :: ps from e)
      refine ⟨q, qs, e', ?_⟩
      rcases hq with rfl | rfl
      · exact Or.inl rfl
      · exact read_cases s.now q

/-- C108: while the gateway runs and has not begun to shut down, the next look at the proxy process is at most
one status period after the last one, or, when no process could be started `n` times in a row, half a second
times 2^(n-1) after it, but never more than 15 seconds. -/
theorem C108_schedule (period : Nat) (ops : List Op) (m : Monitor) (h : (run period ops).monitor = some m) :
    (checks period ops = none ∧ m.due = 0) ∨
    ∃ c, checks period ops = some c ∧ c.last ≤ (run period ops).now ∧
      m.due = c.last + (if c.fails = 0 then period else min (500 * 2 ^ (c.fails - 1)) 15000) := by
  have := timing period ops
  have h1 := this.due m h
  cases hc : checks period ops with
  | none => rw [hc] at h1; exact Or.inl ⟨rfl, h1.1⟩
  | some c =>
    rw [hc] at h1
    exact Or.inr ⟨c, rfl, this.past c hc, h1.1⟩

/-- C108: when the proxy process has ended, the next look at it comes within a status period of its end, or
earlier attempts to start it have failed; and this look starts a new process if it can, and then the proxy
runs. -/
theorem C108_restart (period : Nat) (ops : List Op) (m : Monitor) (p : Proc) (ps : List Proc) (d : Nat)
    (hm : (run period ops).monitor = some m) (hu : (run period ops).up = true)
    (hp : (run period ops).procs = p :: ps) (hd : p.died = some d) :
    (m.due ≤ d + period ∨ ∃ c, checks period ops = some c ∧ 0 < c.fails ∧ m.due ≤ c.last + 15000) ∧
    (m.due ≤ (run period ops).now → Running (run period (ops ++ [.wake true])) ∧
      (run period (ops ++ [.wake true])).procs.length = (run period ops).procs.length + 1) := by
  have ht := timing period ops
  refine ⟨?_, ?_⟩
  · have h1 := ht.due m hm
    cases hc : checks period ops with
    | none => rw [hc] at h1; left; rw [h1.1]; omega
    | some c =>
      rw [hc] at h1
      by_cases hf : c.fails = 0
      · left
        have := ht.dead p ps d c hp hd hc hf
        rw [h1.1]; unfold pause; rw [if_pos hf]; omega
      · right
        refine ⟨c, rfl, by omega, ?_⟩
        rw [h1.1]; unfold pause; rw [if_neg hf]; omega
  · intro hdue
    rw [run_snoc]
    rcases wake_cases period (run period ops) true with ⟨m', _, hm', _, e⟩ | ⟨e, hno⟩
    · rw [e, hp]
      rcases check_cases period (run period ops).now true p ps m' with ⟨c1, c2, c3⟩ | ⟨c1, c2, c3⟩ | ⟨c1, c3⟩
      · rw [c3]; exact ⟨⟨_, _, rfl, rfl⟩, rfl⟩
      · cases c2
      · rw [hd] at c1; cases c1
    · have := hno m hu hm; omega

/-- C108: a running proxy is left alone: no event but its own end, a signal, the end of the gateway or a read of
its input changes it, and no second one is started. -/
theorem C108_left_alone (period : Nat) (ops : List Op) (p : Proc) (ps : List Proc) (ok : Bool)
    (hp : (run period ops).procs = p :: ps) (ha : p.Alive) :
    (run period (ops ++ [.wake ok])).procs = p :: ps := by
  rw [run_snoc]
  rcases wake_cases period (run period ops) ok with ⟨m', _, hm', _, e⟩ | ⟨e, hno⟩
  · rw [e, hp]
    rcases check_cases period (run period ops).now ok p ps m' with ⟨c1, c2, c3⟩ | ⟨c1, c2, c3⟩ | ⟨c1, c3⟩
    · rw [ha] at c1; cases c1
    · rw [ha] at c1; cases c1
    · rw [c3]
  · rw [e, hp]

/-- Once the monitoring task is gone, it stays gone and no process is started. -/
theorem closed_run (period : Nat) (ops more : List Op) (h : (run period ops).monitor = none) :
    (run period (ops ++ more)).monitor = none ∧
      (run period (ops ++ more)).procs.length = (run period ops).procs.length := by
  refine snoc_ind (P := fun more => (run period (ops ++ more)).monitor = none ∧
      (run period (ops ++ more)).procs.length = (run period ops).procs.length) ?_ ?_ more
  · rw [List.append_nil]; exact ⟨h, rfl⟩
  · intro l o ih
    rw [← List.append_assoc, run_snoc]
    generalize run period (ops ++ l) = s at ih ⊢
    obtain ⟨h1, h2⟩ := ih
    rw [← h2]
    cases o with
    | wait ms => exact ⟨h1, rfl⟩
    | exits i => exact ⟨h1, modify_length _ _ _⟩
    | wake ok =>
      rcases wake_cases period s ok with ⟨m, _, hm, _, _⟩ | ⟨e, _⟩
      · rw [h1] at hm; cases hm
      · rw [e]; exact ⟨h1, rfl⟩
    | close =>
      unfold State.step; dsimp only
      by_cases hu : s.up = true
      · rw [if_pos hu]; exact ⟨rfl, rfl⟩
      · rw [if_neg hu]; exact ⟨h1, rfl⟩
    | terminate =>
      unfold State.step; dsimp only
      by_cases hu : s.up = true
      · rw [if_pos hu]; exact ⟨h1, modify_length _ _ _⟩
      · rw [if_neg hu]; exact ⟨h1, rfl⟩
    | ends => exact ⟨rfl, List.length_map _⟩
    | reads i => exact ⟨h1, modify_length _ _ _⟩

/-- C108: once the gateway has begun to shut down, or has ended, no proxy process is started any more. -/
theorem C108_no_start_after (period : Nat) (ops more : List Op) :
    (run period (ops ++ .close :: more)).procs.length = (run period ops).procs.length ∧
    (run period (ops ++ .ends :: more)).procs.length = (run period ops).procs.length := by
  have hinv := inv_run period ops
  have a1 : ops ++ Op.close :: more = (ops ++ [.close]) ++ more := by simp
  have a2 : ops ++ Op.ends :: more = (ops ++ [.ends]) ++ more := by simp
  refine ⟨?_, ?_⟩
  · have h : (run period (ops ++ [.close])).monitor = none ∧
        (run period (ops ++ [.close])).procs.length = (run period ops).procs.length := by
      rw [run_snoc]
      unfold State.step; dsimp only
      by_cases hu : (run period ops).up = true
      · rw [if_pos hu]; exact ⟨rfl, rfl⟩
      · rw [if_neg hu]
        exact ⟨hinv.mon (by simpa using hu), rfl⟩
    rw [a1, (closed_run period _ more h.1).2, h.2]
  · have h : (run period (ops ++ [.ends])).monitor = none ∧
        (run period (ops ++ [.ends])).procs.length = (run period ops).procs.length := by
      rw [run_snoc]; exact ⟨rfl, List.length_map _⟩
    rw [a2, (closed_run period _ more h.1).2, h.2]

/-- The process is told to end. -/
def Doomed (p : Proc) : Prop := p.died.isSome = true ∨ p.signalled = true ∨ p.stdin = false

theorem read_doomed (t : Nat) (p : Proc) (h : Doomed p) : (p.read t).died.isSome = true := by
  unfold Proc.read
  by_cases hc : p.signalled ∨ p.stdin = false
  · rw [if_pos hc]; unfold Proc.die; cases p.died <;> rfl
  · rw [if_neg hc]
    rcases h with h | h | h
    · exact h
    · exact absurd (Or.inl h) hc
    · exact absurd (Or.inr h) hc

/-- C108: no proxy process is left behind: when the gateway has ended, in whatever way and at whatever point
(killed, crashed or shut down), the one process that may still run ends as soon as it looks at its
input; and after a shutdown it also ends by the signal, without the end of the gateway. -/
theorem C108_no_orphan (period : Nat) (ops : List Op) (more : List Op) :
    (∀ q ∈ (run period (ops ++ .ends :: more ++ [.reads 0])).procs, ¬ q.Alive) ∧
    ((run period ops).up = true →
      ∀ q ∈ (run period (ops ++ [.close, .terminate, .reads 0])).procs, ¬ q.Alive) := by
  have key : ∀ ops' : List Op, (∀ p ps, (run period ops').procs = p :: ps → Doomed p) →
      ∀ q ∈ (run period (ops' ++ [.reads 0])).procs, ¬ q.Alive := by
    intro ops' hd q hq ha
    have hinv := inv_run period ops'
    rw [run_snoc] at hq
    cases hp : (run period ops').procs with
    | nil => exact hinv.some hp
    | cons p ps =>
      have hs : ((run period ops').step period (.reads 0)).procs = p.read (run period ops').now :: ps := by
        show modify (Proc.read (run period ops').now) 0 (run period ops').procs = _
        rw [hp]; rfl
      rw [hs] at hq
      rcases List.mem_cons.mp hq with e | e
      · have := read_doomed (run period ops').now p (hd p ps hp)
        rw [← e, ha] at this
        cases this
      · have := hinv.tail q (by rw [hp]; exact e)
        rw [ha] at this; cases this
  refine ⟨?_, ?_⟩
  · apply key
    intro p ps hp
    right; right
    have hup : ∀ more, (run period (ops ++ .ends :: more)).up = false := by
      intro more
      refine snoc_ind (P := fun more => (run period (ops ++ .ends :: more)).up = false) ?_ ?_ more
      · rw [run_snoc]; rfl
      · intro l o ih
        have : ops ++ Op.ends :: (l ++ [o]) = (ops ++ Op.ends :: l) ++ [o] := by simp
        rw [this, run_snoc]
        revert ih
        generalize run period (ops ++ .ends :: l) = s
        intro ih
        cases o with
        | wake ok =>
          rcases wake_cases period s ok with ⟨m, hu, _, _, _⟩ | ⟨e, _⟩
          · rw [ih] at hu; cases hu
          · rw [e]; exact ih
        | close => unfold State.step; dsimp only; rw [ih]; exact ih
        | terminate => unfold State.step; dsimp only; rw [ih]; exact ih
        | wait ms => exact ih
        | exits i => exact ih
        | ends => rfl
        | reads i => exact ih
    exact (inv_run period (ops ++ .ends :: more)).stdin (hup more) p (by rw [hp]; simp)
  · intro hu
    have e : ops ++ [Op.close, .terminate, .reads 0] = (ops ++ [Op.close, .terminate]) ++ [.reads 0] := by simp
    rw [e]
    apply key
    intro p ps hp
    right; left
    have e2 : ops ++ [Op.close, .terminate] = (ops ++ [Op.close]) ++ [.terminate] := by simp
    rw [e2, run_snoc, run_snoc] at hp
    have hinv := inv_run period ops
    revert hp hinv hu
    generalize run period ops = s
    intro hu hp hinv
    unfold State.step at hp
    dsimp only at hp
    rw [if_pos hu] at hp
    dsimp only at hp
    rw [if_pos hu] at hp
    dsimp only at hp
    cases hs : s.procs with
    | nil => exact absurd hs hinv.some
    | cons q qs =>
      rw [hs] at hp
      injection hp with hp _
      rw [← hp]

/-! Non-vacuity. -/

/-- The proxy ends, two starts fail, the third works. -/
def demo : List Op :=
  [.wake true, .wait 10000, .exits 0, .wait 20000, .wake false, .wait 500, .wake false, .wait 999, .wake true]

example : (run 30000 demo).procs.length = 1 ∧ checks 30000 demo = some ⟨30500, 2⟩ ∧
    (run 30000 demo).monitor = some ⟨31500, 2000⟩ := by decide +kernel
example : (run 30000 (demo ++ [.wait 1, .wake true])).procs = [Proc.fresh, ⟨some 10000, false, true⟩] := by decide +kernel
/-- The gateway is killed. -/
example : ((run 30000 (demo ++ [.wait 1, .wake true, .ends, .reads 0])).procs.map (·.died)) = [some 31500, some 10000] := by
  decide +kernel

end Verif.Supervise
