import Verif.Batch.Model
import Verif.Batch.Life
import Verif.Backends.Props
set_option linter.unusedSimpArgs false
set_option linter.unusedVariables false
/-
What holds of jobs on batch systems (C119 to C124).
-/
namespace Verif.Batch
open Verif.Backends (pathJoin slurmFormat pbsFormat Attempt)

/-! ### Specification -/

/-- A word without any character that the shell would take for something else, other than in front of a command: the
characters that need no quotes (as in Python's `shlex.quote`). -/
def PlainWord (w : Str) : Prop :=
  w ≠ [] ∧ ∀ c ∈ w, c.isAlphanum = true ∨ c ∈ "_@%+=:,./-".toList

/-- A command whose words are all plain, and which does not start with a reserved word or an assignment. -/
def PlainCommand (ws : List Str) : Prop :=
  (∀ w ∈ ws, PlainWord w) ∧ ∃ w ws', ws = w :: ws' ∧ '=' ∉ w ∧ w ∉ reserved

/-! ### The shell sees the words it was given -/

theorem plain_char {c : Char} (h : c.isAlphanum = true ∨ c ∈ "_@%+=:,./-".toList) :
    isBlank c = false ∧ c ≠ '\\' ∧ c ≠ '\'' ∧ c ≠ '"' ∧ c ≠ '$' ∧ special c = false := by
  rcases h with h | h
  · refine ⟨?_, ?_, ?_, ?_, ?_, ?_⟩
    · cases hb : isBlank c with
      | false => rfl
      | true =>
        simp only [isBlank, Bool.or_eq_true, beq_iff_eq] at hb
        rcases hb with rfl | rfl <;> simp at h
    · rintro rfl; simp at h
    · rintro rfl; simp at h
    · rintro rfl; simp at h
    · rintro rfl; simp at h
    · cases hb : special c with
      | false => rfl
      | true =>
        exfalso
        rw [special, List.contains_iff_mem] at hb
        have : ∀ d ∈ "|&;<>()`*?[]#~!{}\n".toList, d.isAlphanum = false := by decide
        rw [this c hb] at h; cases h
  · revert c; decide

theorem fields_word (env : Str → Option Str) : ∀ (w : Str) (cur : Option Str) (acc : List Str) (rest : Str),
    (∀ c ∈ w, c.isAlphanum = true ∨ c ∈ "_@%+=:,./-".toList) → w ≠ [] →
    fields env .plain cur acc (w ++ rest) = fields env .plain (push cur w) acc rest
  | [], _, _, _, _, h => absurd rfl h
  | [c], cur, acc, rest, h, _ => by
    obtain ⟨h1, h2, h3, h4, h5, h6⟩ := plain_char (h c (by simp))
    simp [fields, h1, h2, h3, h4, h5, h6]
  | c :: d :: w, cur, acc, rest, h, _ => by
    obtain ⟨h1, h2, h3, h4, h5, h6⟩ := plain_char (h c (by simp))
    rw [List.cons_append, fields]
    simp only [h1, h2, h3, h4, h5, h6, Bool.false_eq_true, if_false]
    rw [fields_word env (d :: w) (push cur [c]) acc rest (fun e he => h e (by simp at he ⊢; right; exact he)) (by simp)]
    simp [push]

theorem fields_join (env : Str → Option Str) : ∀ (ws : List Str) (acc : List Str), (∀ w ∈ ws, PlainWord w) →
    fields env .plain none acc (joinBlank ws) = some (acc ++ ws)
  | [], acc, _ => by simp [joinBlank, fields, close]
  | [w], acc, h => by
    obtain ⟨h1, h2⟩ := h w (by simp)
    have := fields_word env w none acc [] h2 h1
    rw [List.append_nil] at this
    rw [joinBlank, this]
    simp [fields, close, push]
  | w :: v :: ws, acc, h => by
    obtain ⟨h1, h2⟩ := h w (by simp)
    rw [joinBlank, fields_word env w none acc _ h2 h1, fields]
    have hb : isBlank ' ' = true := by decide
    simp only [hb, if_true]
    rw [fields_join env (v :: ws) _ (fun x hx => h x (by simp at hx ⊢; right; exact hx))]
    simp [close, push]

theorem shWords_join (env : Str → Option Str) (ws : List Str) (h : PlainCommand ws) :
    shWords env (joinBlank ws) = some ws := by
  obtain ⟨h1, w, ws', rfl, h2, h3⟩ := h
  have hf := fields_join env (w :: ws') [] h1
  rw [List.nil_append] at hf
  unfold shWords
  rw [hf]
  have e1 : w.contains '=' = false := by
    rw [Bool.eq_false_iff]; intro hc; exact h2 (List.contains_iff_mem.mp hc)
  have e2 : reserved.contains w = false := by
    rw [Bool.eq_false_iff]; intro hc; exact h3 (List.contains_iff_mem.mp hc)
  simp only [e1, e2, Bool.or_false, Bool.false_eq_true, if_false]

theorem plain_no_newline {w : Str} (h : PlainWord w) : '\n' ∉ w := by
  intro hc
  rcases h.2 _ hc with h | h
  · simp at h
  · revert h; decide

theorem join_no_newline : ∀ (ws : List Str), (∀ w ∈ ws, PlainWord w) → '\n' ∉ joinBlank ws
  | [], _ => by simp [joinBlank]
  | [w], h => by simpa [joinBlank] using plain_no_newline (h w (by simp))
  | w :: v :: ws, h => by
    rw [joinBlank, List.mem_append, List.mem_cons]
    rintro (hc | hc | hc)
    · exact plain_no_newline (h w (by simp)) hc
    · revert hc; decide
    · exact join_no_newline (v :: ws) (fun x hx => h x (by simp at hx ⊢; right; exact hx)) hc

theorem takeWhile_all {α : Type} {p : α → Bool} : ∀ {l : List α} {r : List α} {x : α}, (∀ a ∈ l, p a = true) → p x = false →
    (l ++ x :: r).takeWhile p = l
  | [], r, x, _, hx => by simp [List.takeWhile, hx]
  | a :: l, r, x, h, hx => by
    rw [List.cons_append, List.takeWhile_cons_of_pos (h a (by simp)), takeWhile_all (fun b hb => h b (by simp [hb])) hx]

theorem lastLine_append (a b : Str) (h : '\n' ∉ b) : lastLine (a ++ '\n' :: b) = b := by
  unfold lastLine
  rw [List.reverse_append, List.reverse_cons, List.append_assoc, List.singleton_append,
    takeWhile_all (fun c hc => by
      have : c ≠ '\n' := fun e => h (by rw [← e]; exact List.mem_reverse.mp hc)
      simp [this]) (by simp)]
  exact List.reverse_reverse b

/-! ### C119: jobs run the configured command -/

/-- The words that the job of a scheduler is to run, as documented for `dask scheduler` (independent of how the gateway
puts them together): the configured command, then these options. -/
def SchedulerWords (cmd : List Str) (host heartbeat adaptive idle : Str) (ws : List Str) : Prop :=
  ∃ opts, ws = cmd ++ opts ∧
    opts.length = 18 ∧
    (∀ k v, (k, v) ∈ [("--protocol".toList, "tls".toList), ("--port".toList, "0".toList), ("--host".toList, host),
        ("--dashboard-address".toList, host ++ ":0".toList), ("--preload".toList, "dask_gateway.scheduler_preload".toList),
        ("--dg-api-address".toList, host ++ ":0".toList), ("--dg-heartbeat-period".toList, heartbeat),
        ("--dg-adaptive-period".toList, adaptive), ("--dg-idle-timeout".toList, idle)] →
      ∃ i, opts[2 * i]? = some k ∧ opts[2 * i + 1]? = some v)

theorem schedulerCommand_words (b : Sys) (c : Conf) :
    SchedulerWords c.schedulerCmd b.defaultHost b.heartbeatPeriod c.adaptivePeriod c.idleTimeout (schedulerCommand b c) := by
  refine ⟨_, rfl, rfl, ?_⟩
  intro k v h
  simp only [List.mem_cons, Prod.mk.injEq, List.not_mem_nil, or_false] at h
  rcases h with ⟨rfl, rfl⟩ | ⟨rfl, rfl⟩ | ⟨rfl, rfl⟩ | ⟨rfl, rfl⟩ | ⟨rfl, rfl⟩ | ⟨rfl, rfl⟩ | ⟨rfl, rfl⟩ | ⟨rfl, rfl⟩ | ⟨rfl, rfl⟩
  · exact ⟨0, rfl, rfl⟩
  · exact ⟨1, rfl, rfl⟩
  · exact ⟨2, rfl, rfl⟩
  · exact ⟨3, rfl, rfl⟩
  · exact ⟨4, rfl, rfl⟩
  · exact ⟨5, rfl, rfl⟩
  · exact ⟨6, rfl, rfl⟩
  · exact ⟨7, rfl, rfl⟩
  · exact ⟨8, rfl, rfl⟩

/-- The words that the job of a worker is to run: the configured command, the scheduler's address, then these options. -/
def WorkerWords (cmd : List Str) (address host name nthreads memory : Str) (ws : List Str) : Prop :=
  ∃ opts, ws = cmd ++ address :: opts ∧
    opts.length = 8 ∧
    (∀ k v, (k, v) ∈ [("--dashboard-address".toList, host ++ ":0".toList), ("--name".toList, name),
        ("--nthreads".toList, nthreads), ("--memory-limit".toList, memory)] →
      ∃ i, opts[2 * i]? = some k ∧ opts[2 * i + 1]? = some v)

theorem workerCommand_words (b : Sys) (c : Conf) (name address nthreads memory : Str) :
    WorkerWords c.workerCmd address b.defaultHost name nthreads memory (workerCommand b c name address nthreads memory) := by
  refine ⟨_, rfl, rfl, ?_⟩
  intro k v h
  simp only [List.mem_cons, Prod.mk.injEq, List.not_mem_nil, or_false] at h
  rcases h with ⟨rfl, rfl⟩ | ⟨rfl, rfl⟩ | ⟨rfl, rfl⟩ | ⟨rfl, rfl⟩
  · exact ⟨0, rfl, rfl⟩
  · exact ⟨1, rfl, rfl⟩
  · exact ⟨2, rfl, rfl⟩
  · exact ⟨3, rfl, rfl⟩

instance (w : Str) : Decidable (PlainWord w) := inferInstanceAs (Decidable (_ ∧ _))

theorem plain_append {a b : Str} (ha : PlainWord a) (hb : PlainWord b) : PlainWord (a ++ b) := by
  refine ⟨by simp [ha.1], fun c hc => ?_⟩
  rcases List.mem_append.mp hc with h | h
  · exact ha.2 c h
  · exact hb.2 c h

theorem plain_digits (n : Nat) : PlainWord (Nat.toDigits 10 n) := by
  refine ⟨Nat.toDigits_ne_nil, fun c hc => Or.inl ?_⟩
  have : c.isDigit = true := Nat.isDigit_of_mem_toDigits (by decide) (by decide) hc
  simp [Char.isAlphanum, this]

theorem schedulerCommand_plain {b : Sys} {c : Conf} (hc : PlainCommand c.schedulerCmd) (hh : PlainWord b.defaultHost)
    (h1 : PlainWord b.heartbeatPeriod) (h2 : PlainWord c.adaptivePeriod) (h3 : PlainWord c.idleTimeout) :
    PlainCommand (schedulerCommand b c) := by
  obtain ⟨hw, w, ws, e, hn, hr⟩ := hc
  refine ⟨?_, w, ws ++ _, by rw [schedulerCommand, e, List.cons_append], hn, hr⟩
  have h0 : PlainWord (b.defaultHost ++ ":0".toList) := plain_append hh (by decide)
  intro x hx
  unfold schedulerCommand at hx
  rcases List.mem_append.mp hx with hx | hx
  · exact hw x hx
  · simp only [List.mem_cons, List.not_mem_nil, or_false] at hx
    rcases hx with rfl | rfl | rfl | rfl | rfl | rfl | rfl | rfl | rfl | rfl | rfl | rfl | rfl | rfl | rfl | rfl | rfl | rfl <;>
      first | assumption | decide

theorem workerCommand_plain {b : Sys} {c : Conf} {name address nthreads memory : Str} (hc : PlainCommand c.workerCmd)
    (hh : PlainWord b.defaultHost) (h1 : PlainWord name) (h2 : PlainWord address) (h3 : PlainWord nthreads)
    (h4 : PlainWord memory) : PlainCommand (workerCommand b c name address nthreads memory) := by
  obtain ⟨hw, w, ws, e, hn, hr⟩ := hc
  refine ⟨?_, w, ws ++ _, by rw [workerCommand, e, List.cons_append], hn, hr⟩
  have h0 : PlainWord (b.defaultHost ++ ":0".toList) := plain_append hh (by decide)
  intro x hx
  unfold workerCommand at hx
  rcases List.mem_append.mp hx with hx | hx
  · exact hw x hx
  · simp only [List.mem_cons, List.not_mem_nil, or_false] at hx
    rcases hx with rfl | rfl | rfl | rfl | rfl | rfl | rfl | rfl | rfl <;> first | assumption | decide

/-- What runs in a job: the script that was handed over, on standard input (Slurm) or as the last argument after
`/bin/sh -c` (PBS). -/
def Submission.script (s : Submission) : Option Str :=
  match s.stdin with
  | some t => some t
  | none => s.cmd.getLast?

theorem slurm_script {home : Str → Option Str} {b : Sys} {c : Clu} {worker : Option Str} {s : Submission}
    (h : slurmSubmit home b c worker = some s) :
    s.script = some (match worker with
      | some w => "#!/bin/sh\n".toList ++ c.conf.workerSetup ++ '\n' :: joinBlank (workerCommandOf b c w)
      | none => "#!/bin/sh\n".toList ++ c.conf.schedulerSetup ++ '\n' :: joinBlank (schedulerCommand b c.conf)) := by
  unfold slurmSubmit at h
  split at h
  · cases h
    cases worker <;> simp [Submission.script, joinLine]
  · cases h

theorem last_append {α : Type} (x : List α) (y : List α) (a : α) (h : y.getLast? = some a) : (x ++ y).getLast? = some a := by
  rw [List.getLast?_append, h]; rfl

theorem pbs_script {home : Str → Option Str} {b : Sys} {c : Clu} {worker : Option Str} {s : Submission}
    (h : pbsSubmit home b c worker = some s) :
    s.script = some (match worker with
      | some w => c.conf.workerSetup ++ '\n' :: joinBlank (workerCommandOf b c w)
      | none => c.conf.schedulerSetup ++ '\n' :: joinBlank (schedulerCommand b c.conf)) := by
  unfold pbsSubmit at h
  dsimp only at h
  split at h
  · cases h
    unfold Submission.script
    dsimp only
    rw [last_append _ _ _ rfl]
    cases worker <;> simp [joinLine]
  · cases h

/-- The shell reads the text `w` as the word `v`, at the end of the line and before a blank. -/
def Reads (env : Str → Option Str) (w v : Str) : Prop :=
  ∀ (cur : Option Str) (acc : List Str) (rest : Str), rest = [] ∨ rest.head? = some ' ' →
    fields env .plain cur acc (w ++ rest) = fields env .plain (push cur v) acc rest

theorem reads_plain (env : Str → Option Str) {w : Str} (h : PlainWord w) : Reads env w w :=
  fun cur acc rest _ => fields_word env w cur acc rest h.2 h.1

theorem fields_reads (env : Str → Option Str) : ∀ (ps : List (Str × Str)) (acc : List Str),
    (∀ p ∈ ps, Reads env p.1 p.2) → fields env .plain none acc (joinBlank (ps.map (·.1))) = some (acc ++ ps.map (·.2))
  | [], acc, _ => by simp [joinBlank, fields, close]
  | [(w, v)], acc, h => by
    have := h (w, v) (by simp) none acc [] (Or.inl rfl)
    rw [List.append_nil] at this
    change fields env .plain none acc w = _
    rw [this]
    simp [fields, close, push]
  | (w, v) :: p :: ps, acc, h => by
    have := h (w, v) (by simp) none acc (' ' :: joinBlank ((p :: ps).map (·.1))) (Or.inr rfl)
    change fields env .plain none acc (w ++ ' ' :: joinBlank ((p :: ps).map (·.1))) = _
    rw [this, fields]
    have hb : isBlank ' ' = true := by decide
    simp only [hb, if_true]
    rw [fields_reads env (p :: ps) _ (fun x hx => h x (by simp at hx ⊢; right; exact hx))]
    simp [close, push]

theorem expand_plain {env : Str → Option Str} {name v : Str} (cur : Option Str) (hv : env name = some v) (h : PlainWord v) :
    expand env name cur = some (push cur v) := by
  unfold expand
  rw [hv]
  have : v.any (fun c => isBlank c || special c) = false := by
    rw [Bool.eq_false_iff]
    intro ha
    obtain ⟨c, hc, hp⟩ := List.any_eq_true.mp ha
    have := plain_char (h.2 c hc)
    rw [this.1, this.2.2.2.2.2] at hp
    cases hp
  simp only [this, Bool.false_eq_true, if_false, h.1]

theorem fields_name (env : Str → Option Str) : ∀ (n pre : Str) (cur : Option Str) (acc : List Str) (rest : Str),
    (∀ c ∈ n, isName c = true) → fields env (.param pre) cur acc (n ++ rest) = fields env (.param (pre ++ n)) cur acc rest
  | [], pre, _, _, _, _ => by simp
  | c :: n, pre, cur, acc, rest, h => by
    have hc := h c (by simp)
    have hb : c ≠ '{' := by rintro rfl; revert hc; decide
    rw [List.cons_append, fields, if_neg (fun x => hb x.2), if_pos hc,
      fields_name env n (pre ++ [c]) cur acc rest (fun d hd => h d (by simp [hd]))]
    simp

theorem fields_brace (env : Str → Option Str) : ∀ (n pre : Str) (cur : Option Str) (acc : List Str) (rest : Str),
    (∀ c ∈ n, isName c = true) → fields env (.brace pre) cur acc (n ++ rest) = fields env (.brace (pre ++ n)) cur acc rest
  | [], pre, _, _, _, _ => by simp
  | c :: n, pre, cur, acc, rest, h => by
    rw [List.cons_append, fields, if_pos (h c (by simp)),
      fields_brace env n (pre ++ [c]) cur acc rest (fun d hd => h d (by simp [hd]))]
    simp

theorem reads_param {env : Str → Option Str} {n v : Str} (hn : ∀ c ∈ n, isName c = true) (h0 : n ≠ [])
    (hv : env n = some v) (h : PlainWord v) : Reads env ('$' :: n) v := by
  intro cur acc rest hr
  have e1 : fields env .plain cur acc ('$' :: n ++ rest) = fields env (.param n) cur acc rest := by
    have := fields_name env n [] cur acc rest hn
    rw [List.nil_append] at this
    rw [← this]
    rw [List.cons_append, fields]
    have hb : isBlank '$' = false := by decide
    simp [hb]
  rw [e1]
  rcases hr with rfl | hr
  · simp only [fields, expand_plain cur hv h, Option.map_some]
  · cases rest with
    | nil => cases hr
    | cons c rest =>
      cases hr
      have hb : isBlank ' ' = true := by decide
      have hc : isName ' ' = false := by decide
      simp only [fields, hb, hc, h0, expand_plain cur hv h, false_and, Bool.false_eq_true, if_true, if_false]

theorem reads_brace {env : Str → Option Str} {n v w : Str} (hn : ∀ c ∈ n, isName c = true) (h0 : n ≠ [])
    (hv : env n = some v) (h : PlainWord v) (hw : PlainWord w) : Reads env ('$' :: '{' :: n ++ '}' :: w) (v ++ w) := by
  intro cur acc rest hr
  have e1 : fields env .plain cur acc ('$' :: '{' :: n ++ '}' :: w ++ rest) = fields env (.brace n) cur acc ('}' :: (w ++ rest)) := by
    have := fields_brace env n [] cur acc ('}' :: (w ++ rest)) hn
    rw [List.nil_append] at this
    rw [← this]
    have hb : isBlank '$' = false := by decide
    simp [fields, hb]
  have hc : isName '}' = false := by decide
  rw [e1, fields, if_neg (by rw [hc]; decide), if_pos ⟨rfl, h0⟩, expand_plain cur hv h]
  dsimp only
  rw [fields_word env w _ acc rest hw.2 hw.1]
  simp [push]

theorem shWords_reads (env : Str → Option Str) (w : Str) (ps : List (Str × Str)) (h : ∀ p ∈ ps, Reads env p.1 p.2)
    (hw : Reads env w w) (h2 : '=' ∉ w) (h3 : w ∉ reserved) :
    shWords env (joinBlank (w :: ps.map (·.1))) = some (w :: ps.map (·.2)) := by
  have hf := fields_reads env ((w, w) :: ps) [] (fun p hp => by
    rcases List.mem_cons.mp hp with rfl | hp
    · exact hw
    · exact h p hp)
  rw [List.nil_append] at hf
  unfold shWords
  simp only [List.map_cons] at hf
  rw [hf]
  have e1 : w.contains '=' = false := by
    rw [Bool.eq_false_iff]; intro hc; exact h2 (List.contains_iff_mem.mp hc)
  have e2 : reserved.contains w = false := by
    rw [Bool.eq_false_iff]; intro hc; exact h3 (List.contains_iff_mem.mp hc)
  simp only [e1, e2, Bool.or_false, Bool.false_eq_true, if_false]

/-! #### The theorems -/

/-- The last line of a script is this command, and what comes before it is this text. -/
def Runs (env : Str → Option Str) (script before : Str) (ws : List Str) : Prop :=
  script = before ++ '\n' :: lastLine script ∧ shWords env (lastLine script) = some ws

theorem runs_join (env : Str → Option Str) (before : Str) (ws : List Str) (h : PlainCommand ws) :
    Runs env (before ++ '\n' :: joinBlank ws) before ws := by
  unfold Runs
  rw [lastLine_append before _ (join_no_newline ws h.1)]
  exact ⟨rfl, shWords_join env ws h⟩

/-- C119 (partial: for commands and periods whose words need no quotes). The job of a scheduler on Slurm and on PBS runs
the configured setup and then exactly the configured command with the gateway's options, whatever the environment of the
shell. -/
theorem C119_scheduler_partial (home : Str → Option Str) (b : Sys) (c : Clu) (env : Str → Option Str)
    (hc : PlainCommand c.conf.schedulerCmd) (hh : PlainWord b.defaultHost) (h1 : PlainWord b.heartbeatPeriod)
    (h2 : PlainWord c.conf.adaptivePeriod) (h3 : PlainWord c.conf.idleTimeout) :
    ∃ ws, SchedulerWords c.conf.schedulerCmd b.defaultHost b.heartbeatPeriod c.conf.adaptivePeriod c.conf.idleTimeout ws ∧
      (∀ s, slurmSubmit home b c none = some s →
        ∃ t, s.script = some t ∧ Runs env t ("#!/bin/sh\n".toList ++ c.conf.schedulerSetup) ws) ∧
      (∀ s, pbsSubmit home b c none = some s →
        ∃ t, s.script = some t ∧ Runs env t c.conf.schedulerSetup ws ∧
          ∃ front, s.cmd = front ++ ["--".toList, "/bin/sh".toList, "-c".toList, t]) ∧
      Runs env (yarnSchedulerScript b c.conf) c.conf.schedulerSetup ws := by
  have hp := schedulerCommand_plain hc hh h1 h2 h3
  refine ⟨_, schedulerCommand_words b c.conf, fun s h => ⟨_, slurm_script h, runs_join env _ _ hp⟩, fun s h => ?_,
    runs_join env _ _ hp⟩
  refine ⟨_, pbs_script h, runs_join env _ _ hp, ?_⟩
  unfold pbsSubmit at h
  dsimp only at h
  split at h
  · cases h
    exact ⟨_, by simp only [joinLine]; rw [show ∀ (a b c d e f g h : Str), [a, b, c, d, e, f, g, h] = [a, b, c, d] ++ [e, f, g, h] from fun _ _ _ _ _ _ _ _ => rfl, ← List.append_assoc]⟩
  · cases h

/-- C119 (partial: as before, and for addresses and names that need no quotes). The job of a worker on Slurm and on PBS
runs the configured setup and then exactly the configured command with the address of the scheduler, the name of the
worker, its threads and its memory. -/
theorem C119_worker_partial (home : Str → Option Str) (b : Sys) (c : Clu) (name : Str) (env : Str → Option Str)
    (hc : PlainCommand c.conf.workerCmd) (hh : PlainWord b.defaultHost) (h1 : PlainWord name)
    (h2 : PlainWord c.schedulerAddress) :
    ∃ ws, WorkerWords c.conf.workerCmd c.schedulerAddress b.defaultHost name (Nat.toDigits 10 c.conf.workerThreads)
        (Nat.toDigits 10 c.conf.workerMemory) ws ∧
      (∀ s, slurmSubmit home b c (some name) = some s →
        ∃ t, s.script = some t ∧ Runs env t ("#!/bin/sh\n".toList ++ c.conf.workerSetup) ws) ∧
      (∀ s, pbsSubmit home b c (some name) = some s →
        ∃ t, s.script = some t ∧ Runs env t c.conf.workerSetup ws ∧
          ∃ front, s.cmd = front ++ ["--".toList, "/bin/sh".toList, "-c".toList, t]) := by
  have hp : PlainCommand (workerCommandOf b c name) :=
    workerCommand_plain hc hh h1 h2 (plain_digits _) (plain_digits _)
  refine ⟨_, workerCommand_words b c.conf name c.schedulerAddress _ _, fun s h => ⟨_, slurm_script h, runs_join env _ _ hp⟩,
    fun s h => ⟨_, pbs_script h, runs_join env _ _ hp, ?_⟩⟩
  unfold pbsSubmit at h
  dsimp only at h
  split at h
  · cases h
    exact ⟨_, by simp only [joinLine]; rw [show ∀ (a b c d e f g h : Str), [a, b, c, d, e, f, g, h] = [a, b, c, d] ++ [e, f, g, h] from fun _ _ _ _ _ _ _ _ => rfl, ← List.append_assoc]⟩
  · cases h

/-- C119 on YARN (partial: as before). All workers of a cluster have one script; in the container of a worker it runs
the configured command with the name of this worker, the address the scheduler has then, and the container's cores and
memory. -/
theorem C119_yarn_worker_partial (b : Sys) (c : Clu) (name : Str) (vcores memory : Nat) (rest : Str → Option Str)
    (hc : PlainCommand c.conf.workerCmd) (hh : PlainWord b.defaultHost) (h1 : PlainWord name)
    (h2 : PlainWord c.schedulerAddress) :
    ∃ ws, WorkerWords c.conf.workerCmd c.schedulerAddress b.defaultHost name (Nat.toDigits 10 vcores)
        (Nat.toDigits 10 memory ++ "MiB".toList) ws ∧
      Runs (yarnEnv c name vcores memory rest) (yarnWorkerScript b c.conf) c.conf.workerSetup ws := by
  obtain ⟨hw, w, ws', e, hn, hr⟩ := hc
  generalize henv : yarnEnv c name vcores memory rest = env
  have v1 : env "DASK_GATEWAY_WORKER_NAME".toList = some name := by rw [← henv]; rfl
  have v2 : env "DASK_GATEWAY_SCHEDULER_ADDRESS".toList = some c.schedulerAddress := by
    rw [← henv, yarnEnv, if_neg (by decide), if_pos rfl]
  have v3 : env "SKEIN_RESOURCE_VCORES".toList = some (Nat.toDigits 10 vcores) := by
    rw [← henv, yarnEnv, if_neg (by decide), if_neg (by decide), if_pos rfl]
  have v4 : env "SKEIN_RESOURCE_MEMORY".toList = some (Nat.toDigits 10 memory) := by
    rw [← henv, yarnEnv, if_neg (by decide), if_neg (by decide), if_neg (by decide), if_pos rfl]
  have h0 : PlainWord (b.defaultHost ++ ":0".toList) := plain_append hh (by decide)
  let ps : List (Str × Str) := ws'.map (fun x => (x, x)) ++
    [("$DASK_GATEWAY_SCHEDULER_ADDRESS".toList, c.schedulerAddress), ("--dashboard-address".toList, "--dashboard-address".toList),
     (b.defaultHost ++ ":0".toList, b.defaultHost ++ ":0".toList), ("--name".toList, "--name".toList),
     ("$DASK_GATEWAY_WORKER_NAME".toList, name), ("--nthreads".toList, "--nthreads".toList),
     ("$SKEIN_RESOURCE_VCORES".toList, Nat.toDigits 10 vcores), ("--memory-limit".toList, "--memory-limit".toList),
     ("${SKEIN_RESOURCE_MEMORY}MiB".toList, Nat.toDigits 10 memory ++ "MiB".toList)]
  have hps : ∀ p ∈ ps, Reads env p.1 p.2 := by
    intro p hp
    rcases List.mem_append.mp hp with hp | hp
    · obtain ⟨x, hx, rfl⟩ := List.mem_map.mp hp
      exact reads_plain env (hw x (by rw [e]; simp [hx]))
    · simp only [List.mem_cons, List.not_mem_nil, or_false] at hp
      rcases hp with rfl | rfl | rfl | rfl | rfl | rfl | rfl | rfl | rfl
      · exact reads_param (n := "DASK_GATEWAY_SCHEDULER_ADDRESS".toList) (by decide) (by decide) v2 h2
      · exact reads_plain env (by decide)
      · exact reads_plain env h0
      · exact reads_plain env (by decide)
      · exact reads_param (n := "DASK_GATEWAY_WORKER_NAME".toList) (by decide) (by decide) v1 h1
      · exact reads_plain env (by decide)
      · exact reads_param (n := "SKEIN_RESOURCE_VCORES".toList) (by decide) (by decide) v3 (plain_digits _)
      · exact reads_plain env (by decide)
      · exact reads_brace (n := "SKEIN_RESOURCE_MEMORY".toList) (w := "MiB".toList) (by decide) (by decide) v4
          (plain_digits _) (by decide)
  have hline : joinBlank (workerCommand b c.conf "$DASK_GATEWAY_WORKER_NAME".toList "$DASK_GATEWAY_SCHEDULER_ADDRESS".toList
      yarnArgs.1 yarnArgs.2) = joinBlank (w :: ps.map (·.1)) := by
    have hid : (ws'.map (fun x => (x, x))).map (·.1) = ws' := by rw [List.map_map]; exact List.map_id' ws'
    rw [show ps.map (·.1) = ws' ++ _ from by rw [List.map_append, hid]]
    rw [workerCommand, e]
    rfl
  have hnl : '\n' ∉ joinBlank (w :: ps.map (·.1)) := by
    rw [← hline]
    have : ∀ (l : List Str), (∀ x ∈ l, '\n' ∉ x) → '\n' ∉ joinBlank l := by
      intro l
      induction l with
      | nil => intro _; simp [joinBlank]
      | cons a l ih =>
        intro hl
        cases l with
        | nil => simpa [joinBlank] using hl a (by simp)
        | cons d l =>
          rw [joinBlank, List.mem_append, List.mem_cons]
          rintro (hx | hx | hx)
          · exact hl a (by simp) hx
          · revert hx; decide
          · exact ih (fun x hx => hl x (by simp at hx ⊢; right; exact hx)) hx
    apply this
    intro x hx
    unfold workerCommand at hx
    rcases List.mem_append.mp hx with hx | hx
    · exact plain_no_newline (hw x hx)
    · simp only [List.mem_cons, List.not_mem_nil, or_false] at hx
      rcases hx with rfl | rfl | rfl | rfl | rfl | rfl | rfl | rfl | rfl <;>
        first | exact plain_no_newline h0 | decide
  refine ⟨w :: ps.map (·.2), ?_, ?_⟩
  · have hid : (ws'.map (fun x => (x, x))).map (·.2) = ws' := by rw [List.map_map]; exact List.map_id' ws'
    rw [show ps.map (·.2) = ws' ++ _ from by rw [List.map_append, hid], ← List.cons_append, ← e]
    exact workerCommand_words b c.conf name c.schedulerAddress _ _
  · unfold Runs yarnWorkerScript
    rw [hline, lastLine_append _ _ hnl]
    exact ⟨rfl, shWords_reads env w ps hps (reads_plain env (hw w (by rw [e]; simp))) hn hr⟩

end Verif.Batch
