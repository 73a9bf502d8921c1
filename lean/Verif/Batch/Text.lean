import Verif.Batch.Props
set_option linter.unusedSimpArgs false
set_option linter.unusedVariables false
/-
What holds of what the gateway asks of batch systems and makes of their answers (C122, C123).
-/
namespace Verif.Batch
open Verif.Backends (pathJoin slurmFormat pbsFormat Job jobCheck)

/-! ### Specification: what the commands of batch systems print -/

/-- A word without blanks and line ends. -/
def Solid (w : Str) : Prop := w ≠ [] ∧ ∀ c ∈ w, isSpace c = false

/-- What `squeue -h -o "%i %t"` prints: a line per job. -/
def squeueText : List (Str × Str) → Str
  | [] => []
  | (i, s) :: rows => i ++ ' ' :: s ++ '\n' :: squeueText rows

/-- A cell of a table, with at least one blank after it. -/
def cell (w : Str) (pad : Nat) : Str := w ++ List.replicate (pad + 1) ' '

/-- A line of `qstat -x`: the id, the name, the user, the time used, the state and the queue of a job. -/
structure QRow where
  id : Str
  name : Str
  user : Str
  time : Str
  state : Str
  queue : Str
  pad : Nat → Nat

/-- A line of `qstat -x` as it is printed. -/
def QRow.text (r : QRow) : Str :=
  cell r.id (r.pad 0) ++ cell r.name (r.pad 1) ++ cell r.user (r.pad 2) ++ cell r.time (r.pad 3) ++
    cell r.state (r.pad 4) ++ r.queue

/-- The words of a line have no blanks. -/
def QRow.Ok (r : QRow) : Prop :=
  Solid r.id ∧ Solid r.name ∧ Solid r.user ∧ Solid r.time ∧ Solid r.state ∧ Solid r.queue

/-- The lines of `qstat -x` below its two lines of titles. -/
def qstatRows : List QRow → Str
  | [] => []
  | r :: rows => r.text ++ '\n' :: qstatRows rows

/-- What `qstat -x` prints: two lines of titles, then a line per job. -/
def qstatText (title rule : Str) (rows : List QRow) : Str := title ++ '\n' :: rule ++ '\n' :: qstatRows rows

/-- A line that is not broken. -/
def OneLine (s : Str) : Prop := ∀ c ∈ s, isBreak c = false

/-! ### Lines and words -/

theorem break_space {c : Char} (h : isBreak c = true) : isSpace c = true := by
  simp only [isBreak, isSpace, Bool.or_eq_true, Bool.and_eq_true, decide_eq_true_eq, beq_iff_eq] at h ⊢
  omega

theorem solid_line {w : Str} (h : ∀ c ∈ w, isSpace c = false) : OneLine w := by
  intro c hc
  cases hb : isBreak c with
  | false => rfl
  | true => have := break_space hb; rw [h c hc] at this; cases this

theorem splitlines_line : ∀ (l cur rest : Str), OneLine l →
    splitlinesGo cur (l ++ '\n' :: rest) = (cur ++ l) :: splitlinesGo [] rest
  | [], cur, rest, _ => by
    cases rest with
    | nil => simp [splitlinesGo, show isBreak '\n' = true from by decide]
    | cons d s => simp [splitlinesGo, show isBreak '\n' = true from by decide]
  | [c], cur, rest, h => by
    have hc : isBreak c = false := h c (by simp)
    have hr : c ≠ '\r' := by rintro rfl; revert hc; decide
    rw [List.cons_append, List.nil_append, splitlinesGo, if_neg (fun x => hr x.1), if_neg (by rw [hc]; decide)]
    have := splitlines_line [] (cur ++ [c]) rest (by intro _ h; cases h)
    rw [List.nil_append] at this
    rw [this]
    simp
  | c :: d :: l, cur, rest, h => by
    have hc : isBreak c = false := h c (by simp)
    have hr : c ≠ '\r' := by rintro rfl; revert hc; decide
    rw [List.cons_append, List.cons_append, splitlinesGo, if_neg (fun x => hr x.1), if_neg (by rw [hc]; decide)]
    have := splitlines_line (d :: l) (cur ++ [c]) rest (fun x hx => h x (by simp at hx ⊢; right; exact hx))
    rw [List.cons_append] at this
    rw [this]
    simp

theorem splitlines_lines : ∀ (ls : List Str), (∀ l ∈ ls, OneLine l) →
    splitlinesGo [] (ls.flatMap (fun l => l ++ ['\n'])) = ls
  | [], _ => rfl
  | l :: ls, h => by
    rw [List.flatMap_cons, List.append_assoc, List.singleton_append, splitlines_line l [] _ (h l (by simp)),
      splitlines_lines ls (fun x hx => h x (by simp [hx]))]
    simp

theorem split_word : ∀ (w cur rest : Str), (∀ c ∈ w, isSpace c = false) → splitGo cur (w ++ rest) = splitGo (cur ++ w) rest
  | [], cur, rest, _ => by simp
  | c :: w, cur, rest, h => by
    rw [List.cons_append, splitGo, if_neg (by rw [h c (by simp)]; decide),
      split_word w (cur ++ [c]) rest (fun x hx => h x (by simp [hx]))]
    simp

theorem split_blanks : ∀ (n : Nat) (rest : Str), splitGo [] (List.replicate n ' ' ++ rest) = splitGo [] rest
  | 0, rest => by simp
  | n + 1, rest => by
    rw [List.replicate_succ, List.cons_append, splitGo, if_pos (by decide), if_pos rfl, split_blanks n rest]

theorem split_cell (w : Str) (pad : Nat) (rest : Str) (h : Solid w) :
    splitGo [] (cell w pad ++ rest) = w :: splitGo [] rest := by
  unfold cell
  rw [List.append_assoc, split_word w [] _ h.2, List.nil_append, List.replicate_succ, List.cons_append, splitGo,
    if_pos (by decide), if_neg h.1, split_blanks]

theorem split_last (w : Str) (h : Solid w) : splitGo [] w = [w] := by
  have := split_word w [] [] h.2
  rw [List.append_nil] at this
  rw [this, List.nil_append, splitGo, if_neg h.1]

theorem slurmRow_line (i s : Str) (hi : Solid i) (hs : Solid s) : slurmRow (i ++ ' ' :: s) = some (i, s) := by
  have : splitWords (i ++ ' ' :: s) = [i, s] := by
    have e : i ++ ' ' :: s = cell i 0 ++ s := by simp [cell]
    rw [splitWords, e, split_cell i 0 s hi, split_last s hs]
  rw [slurmRow, this]

theorem pbsRow_line (r : QRow) (h : r.Ok) : pbsRow r.text = some (r.id, r.state) := by
  obtain ⟨h1, h2, h3, h4, h5, h6⟩ := h
  have : splitWords r.text = [r.id, r.name, r.user, r.time, r.state, r.queue] := by
    unfold splitWords QRow.text
    simp only [List.append_assoc]
    rw [split_cell _ _ _ h1, split_cell _ _ _ h2, split_cell _ _ _ h3, split_cell _ _ _ h4, split_cell _ _ _ h5,
      split_last _ h6]
  rw [pbsRow, this]
  rfl

theorem cell_line (w : Str) (pad : Nat) (h : Solid w) : OneLine (cell w pad) := by
  intro c hc
  rcases List.mem_append.mp hc with hc | hc
  · exact solid_line h.2 c hc
  · rw [List.mem_replicate] at hc; rw [hc.2]; decide

theorem qrow_line (r : QRow) (h : r.Ok) : OneLine r.text := by
  obtain ⟨h1, h2, h3, h4, h5, h6⟩ := h
  intro c hc
  unfold QRow.text at hc
  simp only [List.mem_append] at hc
  rcases hc with ((((hc | hc) | hc) | hc) | hc) | hc
  · exact cell_line _ _ h1 c hc
  · exact cell_line _ _ h2 c hc
  · exact cell_line _ _ h3 c hc
  · exact cell_line _ _ h4 c hc
  · exact cell_line _ _ h5 c hc
  · exact solid_line h6.2 c hc

theorem allSome_map {α β : Type} (f : α → Option β) (g : α → β) : ∀ (l : List α), (∀ a ∈ l, f a = some (g a)) →
    allSome (l.map f) = some (l.map g)
  | [], _ => rfl
  | a :: l, h => by
    rw [List.map_cons, h a (by simp), allSome, allSome_map f g l (fun x hx => h x (by simp [hx]))]
    rfl

theorem squeue_flat : ∀ rows : List (Str × Str),
    squeueText rows = (rows.map (fun r => r.1 ++ ' ' :: r.2)).flatMap (fun l => l ++ ['\n'])
  | [] => rfl
  | (i, s) :: rows => by
    rw [squeueText, squeue_flat rows, List.map_cons, List.flatMap_cons]
    simp

theorem qstat_flat : ∀ rows : List QRow, qstatRows rows = (rows.map QRow.text).flatMap (fun l => l ++ ['\n'])
  | [] => rfl
  | r :: rows => by
    rw [qstatRows, qstat_flat rows, List.map_cons, List.flatMap_cons]
    simp

/-! ### C122: jobs are asked about under the id they have -/

/-- The states of Slurm that mean that a job is there: running, completing, pending, configuring. -/
def slurmAlive : List Str := ["R", "CG", "PD", "CF"].map String.toList

/-- The states of PBS that mean that a job is there: running, queued, held. -/
def pbsAlive : List Str := ["R", "Q", "H"].map String.toList

theorem slurmRows_text (rows : List (Str × Str)) (h : ∀ r ∈ rows, Solid r.1 ∧ Solid r.2) :
    slurmRows (squeueText rows) = some rows := by
  have hl : splitlines (squeueText rows) = rows.map (fun r => r.1 ++ ' ' :: r.2) := by
    rw [squeue_flat]
    apply splitlines_lines
    intro l hl
    obtain ⟨r, hr, rfl⟩ := List.mem_map.mp hl
    intro c hc
    rcases List.mem_append.mp hc with hc | hc
    · exact solid_line (h r hr).1.2 c hc
    · rcases List.mem_cons.mp hc with rfl | hc
      · decide
      · exact solid_line (h r hr).2.2 c hc
  unfold slurmRows
  have := allSome_map (slurmRow ∘ fun (r : Str × Str) => r.1 ++ ' ' :: r.2) (fun r => r) rows
    (fun r hr => slurmRow_line r.1 r.2 (h r hr).1 (h r hr).2)
  rw [hl, List.map_map, this]
  simp

theorem pbsRows_text (title rule : Str) (ht : OneLine title) (hr : OneLine rule) (rows : List QRow) (h : ∀ r ∈ rows, r.Ok) :
    pbsRows (qstatText title rule rows) = some (rows.map (fun r => (r.id, r.state))) := by
  have hl : splitlines (qstatText title rule rows) = title :: rule :: rows.map QRow.text := by
    unfold splitlines qstatText
    have e : title ++ '\n' :: rule ++ '\n' :: qstatRows rows = title ++ '\n' :: (rule ++ '\n' :: qstatRows rows) := by simp
    rw [e, splitlines_line title [] _ ht, splitlines_line rule [] _ hr, qstat_flat]
    rw [splitlines_lines _ (fun l hl => by obtain ⟨r, hr, rfl⟩ := List.mem_map.mp hl; exact qrow_line r (h r hr))]
    simp
  unfold pbsRows
  rw [hl]
  simp only [List.drop_succ_cons, List.drop_zero]
  rw [List.map_map, allSome_map (pbsRow ∘ QRow.text) (fun r => (r.id, r.state)) rows (fun r hr => pbsRow_line r (h r hr))]

theorem strip_line (w : Str) (h : Solid w) : strip (w ++ ['\n']) = w := by
  have hd : ∀ (l : Str), (∀ c ∈ l, isSpace c = false) → ∀ r : Str, l ≠ [] → (l ++ r).dropWhile isSpace = l ++ r := by
    intro l hl r hne
    cases l with
    | nil => exact absurd rfl hne
    | cons c l => rw [List.cons_append, List.dropWhile_cons, if_neg (by rw [hl c (by simp)]; decide)]
  unfold strip
  rw [hd w h.2 _ h.1, List.reverse_append, List.reverse_singleton, List.singleton_append, List.dropWhile_cons,
    if_pos (by decide)]
  have := hd w.reverse (fun c hc => h.2 c (List.mem_reverse.mp hc)) [] (by simpa using h.1)
  rw [List.append_nil] at this
  rw [this, List.reverse_reverse]

/-- A job of the batch system that the gateway submitted for a cluster or worker: its id, and the state that the
status command shows for it, if it is listed. -/
structure Known where
  name : Str
  id : Str
  state : Option Str

/-- What the gateway remembers of such a job: what it read from the answer to the submission. -/
def Known.job (answer : Str → Str) (k : Known) : Job := { name := k.name, jobId := some (parseJobId (answer k.id)) }

/-- A table lists each of these jobs once and in its state, and no job that is not to be listed. -/
def Lists (rows : List (Str × Str)) (ks : List Known) : Prop :=
  (rows.map (·.1)).Nodup ∧ ∀ k ∈ ks, ∀ s, k.state = some s ↔ (k.id, s) ∈ rows

theorem lastRow_iff (rows : List (Str × Str)) (hn : (rows.map (·.1)).Nodup) (j s : Str) :
    Backends.lastRow rows j = some s ↔ (j, s) ∈ rows := by
  unfold Backends.lastRow
  constructor
  · intro h
    cases hf : rows.reverse.find? (fun r => decide (r.1 = j)) with
    | none => rw [hf] at h; cases h
    | some r =>
      rw [hf] at h
      cases h
      have h1 := List.find?_some hf
      have h2 := List.mem_of_find?_eq_some hf
      have h1 : r.1 = j := by simpa using h1
      rw [← h1]
      exact List.mem_reverse.mp h2
  · intro h
    cases hf : rows.reverse.find? (fun r => decide (r.1 = j)) with
    | none =>
      rw [List.find?_eq_none] at hf
      exact absurd (by simp) (hf (j, s) (List.mem_reverse.mpr h))
    | some r =>
      have h1 : r.1 = j := by simpa using List.find?_some hf
      have h2 := List.mem_reverse.mp (List.mem_of_find?_eq_some hf)
      have : r = (j, s) := by
        clear hf
        induction rows with
        | nil => cases h
        | cons a rows ih =>
          rw [List.map_cons, List.nodup_cons] at hn
          rcases List.mem_cons.mp h with e | h
          · rcases List.mem_cons.mp h2 with e2 | h2
            · rw [e, e2]
            · exact absurd (List.mem_map.mpr ⟨r, h2, by rw [h1, ← e]⟩) hn.1
          · rcases List.mem_cons.mp h2 with e2 | h2
            · exact absurd (List.mem_map.mpr ⟨(j, s), h, by rw [← e2, h1]⟩) hn.1
            · exact ih hn.2 h h2
      rw [this]
      rfl

theorem check_spec (query : List Str → Option (List (Str × Str))) (active : List Str) (answer : Str → Str) (ks : List Known)
    (rows : List (Str × Str)) (hq : ∀ ids, query ids = some rows) (hn : (ks.map Known.name).Nodup)
    (hp : ∀ k ∈ ks, parseJobId (answer k.id) = k.id) (hl : Lists rows ks) :
    jobCheck query active (ks.map (Known.job answer)) =
      some (ks.map (fun k => match k.state with | some s => active.contains s | none => false)) := by
  have hn' : ((ks.map (Known.job answer)).map Job.name).Nodup := by rwa [List.map_map]
  obtain ⟨out, h1, h2, h3⟩ := Backends.C61_jobs query active (ks.map (Known.job answer)) hn' rows hq
  rw [h1]
  congr 1
  rw [List.length_map] at h2
  apply List.ext_getElem (by rw [h2, List.length_map])
  intro i hi hi'
  rw [List.length_map] at hi'
  have h3 := h3 i (by rw [List.length_map]; exact hi') hi
  rw [List.getElem_map] at h3 ⊢
  have hk : ks[i] ∈ ks := List.getElem_mem hi'
  generalize ks[i] = k at h3 hk
  rw [Bool.eq_iff_iff, h3]
  simp only [Known.job, Option.some.injEq]
  rw [hp k hk]
  constructor
  · rintro ⟨j, s, rfl, hs, ha⟩
    have := (hl.2 k hk s).mpr ((lastRow_iff rows hl.1 k.id s).mp hs)
    rw [this]
    exact List.contains_iff_mem.mpr ha
  · intro h
    cases hs : k.state with
    | none => rw [hs] at h; cases h
    | some s =>
      rw [hs] at h
      exact ⟨k.id, s, rfl, (lastRow_iff rows hl.1 k.id s).mpr ((hl.2 k hk s).mp hs), List.contains_iff_mem.mp h⟩

/-- C122 (partial: for a Slurm whose `sbatch --parsable` prints the id alone). The gateway asks for the jobs under the ids
they have and reads from the printed table, for each job, exactly whether it is running, completing, pending or
configuring; and it cancels a job under its id. -/
theorem C122_slurm_partial (run : List Str → Option Str) (b : Sys) (ks : List Known) (rows : List (Str × Str))
    (hr : ∀ ids, run [b.status, "-h".toList, "--job=".toList ++ Env.joinComma ids, "-o".toList, "%i %t".toList] = some (squeueText rows))
    (hs : ∀ r ∈ rows, Solid r.1 ∧ Solid r.2) (hn : (ks.map Known.name).Nodup) (hi : ∀ k ∈ ks, Solid k.id) (hl : Lists rows ks) :
    slurmCheck run b (ks.map (Known.job (fun id => id ++ ['\n']))) =
        some (ks.map (fun k => match k.state with | some s => slurmAlive.contains s | none => false)) ∧
      ∀ k ∈ ks, stopCmd b (parseJobId (k.id ++ ['\n'])) = [b.cancel, k.id] := by
  have hp : ∀ k ∈ ks, parseJobId (k.id ++ ['\n']) = k.id := fun k hk => strip_line k.id (hi k hk)
  refine ⟨?_, fun k hk => by rw [hp k hk]; rfl⟩
  exact check_spec _ slurmAlive _ ks rows (fun ids => by
    show (run (slurmStatusCmd b ids)).bind slurmRows = some rows
    unfold slurmStatusCmd
    rw [hr]
    exact slurmRows_text rows hs) hn hp hl

/-- C122 for PBS, whose `qsub` prints the id alone and whose `qstat -x` prints a table with two lines of titles. -/
theorem C122_pbs (run : List Str → Option Str) (b : Sys) (ks : List Known) (title rule : Str) (rows : List QRow)
    (hr : ∀ ids, run (b.status :: "-x".toList :: ids) = some (qstatText title rule rows))
    (h1 : OneLine title) (h2 : OneLine rule) (hs : ∀ r ∈ rows, r.Ok) (hn : (ks.map Known.name).Nodup)
    (hi : ∀ k ∈ ks, Solid k.id) (hl : Lists (rows.map (fun r => (r.id, r.state))) ks) :
    pbsCheck run b (ks.map (Known.job (fun id => id ++ ['\n']))) =
        some (ks.map (fun k => match k.state with | some s => pbsAlive.contains s | none => false)) ∧
      ∀ k ∈ ks, stopCmd b (parseJobId (k.id ++ ['\n'])) = [b.cancel, k.id] := by
  have hp : ∀ k ∈ ks, parseJobId (k.id ++ ['\n']) = k.id := fun k hk => strip_line k.id (hi k hk)
  refine ⟨?_, fun k hk => by rw [hp k hk]; rfl⟩
  exact check_spec _ pbsAlive _ ks _ (fun ids => by
    show (run (pbsStatusCmd b ids)).bind pbsRows = _
    unfold pbsStatusCmd
    rw [List.cons_append, List.singleton_append, hr]
    exact pbsRows_text title rule h1 h2 rows hs) hn hp hl

/-- What `sbatch --parsable` prints on a system with several clusters (sbatch(1): "the job id number and the cluster
name if present, separated by a semicolon"). -/
def multiAnswer (cluster id : Str) : Str := id ++ ';' :: cluster ++ ['\n']

/-- C122 is violated on Slurm with several clusters: the name of the cluster is kept as a part of the id, so that every
job that runs is taken for gone, and cancelled under another id. -/
theorem C122_violated (run : List Str → Option Str) (b : Sys) (cluster : Str) (hc : Solid cluster) (ks : List Known)
    (rows : List (Str × Str))
    (hr : ∀ ids, run [b.status, "-h".toList, "--job=".toList ++ Env.joinComma ids, "-o".toList, "%i %t".toList] = some (squeueText rows))
    (hs : ∀ r ∈ rows, Solid r.1 ∧ Solid r.2 ∧ ';' ∉ r.1) (hn : (ks.map Known.name).Nodup) (hi : ∀ k ∈ ks, Solid k.id) :
    slurmCheck run b (ks.map (Known.job (multiAnswer cluster))) = some (ks.map (fun _ => false)) ∧
      ∀ k ∈ ks, stopCmd b (parseJobId (multiAnswer cluster k.id)) ≠ [b.cancel, k.id] := by
  have hp : ∀ k ∈ ks, parseJobId (multiAnswer cluster k.id) = k.id ++ ';' :: cluster := by
    intro k hk
    apply strip_line
    refine ⟨by simp, fun c hc' => ?_⟩
    rcases List.mem_append.mp hc' with h | h
    · exact (hi k hk).2 c h
    · rcases List.mem_cons.mp h with rfl | h
      · decide
      · exact hc.2 c h
  constructor
  · have hn' : ((ks.map (Known.job (multiAnswer cluster))).map Job.name).Nodup := by rwa [List.map_map]
    obtain ⟨out, h1, h2, h3⟩ := Backends.C61_jobs (fun ids => (run (slurmStatusCmd b ids)).bind slurmRows) slurmActive
      (ks.map (Known.job (multiAnswer cluster))) hn' rows (fun ids => by
        show (run (slurmStatusCmd b ids)).bind slurmRows = some rows
        unfold slurmStatusCmd
        rw [hr]
        exact slurmRows_text rows (fun r h => ⟨(hs r h).1, (hs r h).2.1⟩))
    unfold slurmCheck
    rw [h1]
    congr 1
    rw [List.length_map] at h2
    apply List.ext_getElem (by rw [h2, List.length_map])
    intro i hi1 hi2
    rw [List.length_map] at hi2
    have h3 := h3 i (by rw [List.length_map]; exact hi2) hi1
    rw [List.getElem_map] at h3 ⊢
    rw [Bool.eq_false_iff]
    intro ht
    obtain ⟨j, s, e, hl, _⟩ := h3.mp ht
    have e : parseJobId (multiAnswer cluster ks[i].id) = j := by
      simpa [Known.job] using e
    rw [hp _ (List.getElem_mem hi2)] at e
    unfold Backends.lastRow at hl
    cases hf : rows.reverse.find? (fun r => decide (r.1 = j)) with
    | none => rw [hf] at hl; cases hl
    | some r =>
      have hr1 : r.1 = j := by simpa using List.find?_some hf
      apply (hs r (List.mem_reverse.mp (List.mem_of_find?_eq_some hf))).2.2
      rw [hr1, ← e]
      simp
  · intro k hk he
    rw [hp k hk] at he
    simp [stopCmd] at he

/-! ### C123: jobs get the resources and options that are configured -/

/-- The value in an argument of the form `name=value`. -/
def valueIn (name a : Str) : Option Str :=
  if (name ++ ['=']).isPrefixOf a then some (a.drop (name.length + 1)) else none

/-- The value of an option of the form `--name=value` on a command line: the last one given. -/
def optionOf (name : Str) (cmd : List Str) : Option Str := (cmd.filterMap (valueIn name)).getLast?

/-- The options of one letter on a command line, up to `--`, as `getopt` reads them if each of them takes a value: the
value is the rest of the word, or the next word if there is no rest. -/
def letters : List Str → List (Str × Str)
  | [] => []
  | [a] => if a = "--".toList ∨ a.length ≤ 2 then [] else [(a.take 2, a.drop 2)]
  | a :: b :: l =>
    if a = "--".toList then []
    else if a.length ≤ 2 then (a, b) :: letters l
    else (a.take 2, a.drop 2) :: letters (b :: l)

/-- The values of an option among those given. -/
def pick (flag : Str) (l : List (Str × Str)) : List Str := l.filterMap fun p => if p.1 = flag then some p.2 else none

/-- The values of an option of one letter of a command. -/
def valuesOf (flag : Str) (cmd : List Str) : List Str := pick flag (letters cmd.tail)

/-- A setting that is not given if it is empty. -/
def given (s : Str) : Option Str := if s = [] then none else some s

theorem prefix_eq : ∀ (n x v : Str), '=' ∉ n → '=' ∉ x → ((n ++ ['=']).isPrefixOf (x ++ '=' :: v) = decide (n = x))
  | [], [], v, _, _ => by simp
  | [], c :: x, v, _, hx => by
    have : c ≠ '=' := fun e => hx (by simp [e])
    simp [List.isPrefixOf, this, Ne.symm this]
  | c :: n, [], v, hn, _ => by
    have : c ≠ '=' := fun e => hn (by simp [e])
    simp [List.isPrefixOf, this]
  | c :: n, d :: x, v, hn, hx => by
    have := prefix_eq n x v (fun h => hn (by simp [h])) (fun h => hx (by simp [h]))
    rw [List.cons_append, List.cons_append, List.isPrefixOf, this]
    by_cases hcd : c = d
    · subst hcd; simp
    · simp [hcd]

theorem valueIn_opt (n x v : Str) (hn : '=' ∉ n) (hx : '=' ∉ x) : valueIn n (x ++ '=' :: v) = if n = x then some v else none := by
  unfold valueIn
  rw [prefix_eq n x v hn hx]
  by_cases h : n = x
  · subst h; simp
  · simp [h]

theorem valueIn_none (n a : Str) (h : '=' ∉ a) : valueIn n a = none := by
  unfold valueIn
  rw [if_neg]
  intro hp
  rw [List.isPrefixOf_iff_prefix] at hp
  exact h (hp.subset (by simp))

theorem optArg_values (n f x v : Str) (hn : '=' ∉ n) (hf : f = x ++ ['=']) (hx : '=' ∉ x) :
    (optArg f v).filterMap (valueIn n) = if n = x ∧ v ≠ [] then [v] else [] := by
  subst hf
  unfold optArg
  by_cases hv : v = []
  · simp [hv]
  · rw [if_neg hv, List.append_assoc, List.singleton_append, List.filterMap_cons, valueIn_opt n x v hn hx]
    by_cases h : n = x <;> simp [h, hv]

/-- The options of a submission on Slurm, by name. -/
theorem slurm_option {home : Str → Option Str} {b : Sys} {c : Clu} {worker : Option Str} {s : Submission}
    (h : slurmSubmit home b c worker = some s) (n : Str) (hn : '=' ∉ n) (hb : valueIn n b.submit = none) :
    ∃ dir out env, stagingDir home c = some dir ∧ optionOf n s.cmd =
      ((if n = "--job-name".toList then ["dask-gateway".toList] else []) ++
        (if n = "--partition".toList ∧ c.conf.partition ≠ [] then [c.conf.partition] else []) ++
        (if n = "--account".toList ∧ c.conf.account ≠ [] then [c.conf.account] else []) ++
        (if n = "--qos".toList ∧ c.conf.qos ≠ [] then [c.conf.qos] else []) ++
        (if n = "--chdir".toList then [dir] else []) ++
        (if n = "--output".toList then [out] else []) ++
        (if n = "--cpus-per-task".toList then
          [Nat.toDigits 10 (if worker = none then c.conf.schedulerCores else c.conf.workerCores)] else []) ++
        (if n = "--mem".toList then
          [slurmFormat (if worker = none then c.conf.schedulerMemory else c.conf.workerMemory)] else []) ++
        (if n = "--export".toList then [env] else [])).getLast? := by
  unfold slurmSubmit at h
  split at h
  · rename_i dir cert key hd ht
    refine ⟨dir, pathJoin dir (match worker with
      | some w => "dask-worker-".toList ++ w ++ ".log".toList
      | none => "dask-scheduler-".toList ++ c.name ++ ".log".toList),
      Env.exported (match worker with
        | some _ => Env.workerEnv (Env.getEnv c.given) cert key
        | none => Env.schedulerEnv (Env.getEnv c.given) cert key), hd, ?_⟩
    cases h
    unfold optionOf
    dsimp only
    have e1 := optArg_values n "--partition=".toList "--partition".toList c.conf.partition hn (by decide) (by decide)
    have e2 := optArg_values n "--account=".toList "--account".toList c.conf.account hn (by decide) (by decide)
    have e3 := optArg_values n "--qos=".toList "--qos".toList c.conf.qos hn (by decide) (by decide)
    have cons : ∀ (f x v : Str) (l : List Str), f = x ++ ['='] → '=' ∉ x →
        ((f ++ v) :: l).filterMap (valueIn n) = (if n = x then [v] else []) ++ l.filterMap (valueIn n) := by
      intro f x v l hf hx
      rw [hf, List.append_assoc, List.singleton_append, List.filterMap_cons, valueIn_opt n x v hn hx]
      by_cases h : n = x <;> simp [h]
    have cons' : ∀ (a x v : Str) (l : List Str), a = x ++ '=' :: v → '=' ∉ x →
        (a :: l).filterMap (valueIn n) = (if n = x then [v] else []) ++ l.filterMap (valueIn n) := by
      intro a x v l ha hx
      rw [ha, List.filterMap_cons, valueIn_opt n x v hn hx]
      by_cases h : n = x <;> simp [h]
    congr 1
    simp only [List.filterMap_append]
    rw [e1, e2, e3, List.filterMap_cons, hb]
    dsimp only
    rw [List.filterMap_cons, valueIn_none n _ (by decide)]
    dsimp only
    rw [cons' _ "--job-name".toList "dask-gateway".toList _ (by decide) (by decide),
      cons _ "--chdir".toList _ _ (by decide) (by decide), cons _ "--output".toList _ _ (by decide) (by decide),
      cons _ "--cpus-per-task".toList _ _ (by decide) (by decide), cons _ "--mem".toList _ _ (by decide) (by decide),
      cons _ "--export".toList _ _ (by decide) (by decide)]
    cases worker <;> simp only [List.filterMap_nil, List.append_nil, List.append_assoc, reduceCtorEq, if_true, if_false]
  · cases h

/-- C123 for Slurm. A job is submitted with exactly the configured partition, account and quality of service (none if
not configured), the cores of its kind, its memory as of C60, and with the cluster's staging directory as working
directory. -/
theorem C123_slurm (home : Str → Option Str) (b : Sys) (c : Clu) (worker : Option Str) (s : Submission)
    (hb : '=' ∉ b.submit) (h : slurmSubmit home b c worker = some s) :
    s.cmd.head? = some b.submit ∧ "--parsable".toList ∈ s.cmd ∧
      optionOf "--partition".toList s.cmd = given c.conf.partition ∧
      optionOf "--account".toList s.cmd = given c.conf.account ∧
      optionOf "--qos".toList s.cmd = given c.conf.qos ∧
      optionOf "--cpus-per-task".toList s.cmd =
        some (Nat.toDigits 10 (if worker = none then c.conf.schedulerCores else c.conf.workerCores)) ∧
      optionOf "--mem".toList s.cmd =
        some (slurmFormat (if worker = none then c.conf.schedulerMemory else c.conf.workerMemory)) ∧
      (∃ dir, stagingDir home c = some dir ∧ optionOf "--chdir".toList s.cmd = some dir) := by
  have hv : ∀ n, valueIn n b.submit = none := fun n => valueIn_none n _ hb
  refine ⟨?_, ?_, ?_, ?_, ?_, ?_, ?_, ?_⟩
  · unfold slurmSubmit at h; split at h <;> cases h; rfl
  · unfold slurmSubmit at h; split at h <;> cases h; simp
  · obtain ⟨dir, out, env, hd, e⟩ := slurm_option h "--partition".toList (by decide) (hv _)
    rw [e, given]; by_cases hp : c.conf.partition = [] <;> simp [hp] <;> decide
  · obtain ⟨dir, out, env, hd, e⟩ := slurm_option h "--account".toList (by decide) (hv _)
    rw [e, given]; by_cases hp : c.conf.account = [] <;> simp [hp] <;> decide
  · obtain ⟨dir, out, env, hd, e⟩ := slurm_option h "--qos".toList (by decide) (hv _)
    rw [e, given]; by_cases hp : c.conf.qos = [] <;> simp [hp] <;> decide
  · obtain ⟨dir, out, env, hd, e⟩ := slurm_option h "--cpus-per-task".toList (by decide) (hv _)
    rw [e]; simp
  · obtain ⟨dir, out, env, hd, e⟩ := slurm_option h "--mem".toList (by decide) (hv _)
    rw [e]; simp
  · obtain ⟨dir, out, env, hd, e⟩ := slurm_option h "--chdir".toList (by decide) (hv _)
    exact ⟨dir, hd, by rw [e]; simp⟩

/-- What the settings of a kind of job are. -/
def kindOf (worker : Option Str) (forScheduler forWorker : α) : α := if worker = none then forScheduler else forWorker

/-- The default of the resources asked for on PBS (pbs.py:40, 53). -/
def defaultResources : Str := "select=1:ncpus={cores}:mem={memory}".toList

theorem format_default (cores memory : Nat) : resourceList defaultResources cores memory =
    some ("select=1:ncpus=".toList ++ Nat.toDigits 10 cores ++ ":mem=".toList ++ pbsFormat memory) := by
  have h : resourceList defaultResources cores memory =
      some ("select=1:ncpus=".toList ++ (Nat.toDigits 10 cores ++ (":mem=".toList ++ (pbsFormat memory ++ [])))) := by
    unfold resourceList format
    rfl
  rw [h]; simp

theorem letters_opt (flag v : Str) (l : List Str) (hf : flag ≠ "--".toList ∧ flag.length = 2) :
    letters (optArgs flag v ++ l) = (if v = [] then [] else [(flag, v)]) ++ letters l := by
  unfold optArgs
  by_cases hv : v = []
  · simp [hv]
  · rw [if_neg hv, if_neg hv, List.cons_append, List.cons_append, letters, if_neg hf.1, if_pos (by omega)]
    rfl

theorem pick_append (f : Str) (l m : List (Str × Str)) : pick f (l ++ m) = pick f l ++ pick f m := List.filterMap_append

theorem pick_cons (f g v : Str) (l : List (Str × Str)) : pick f ((g, v) :: l) = (if g = f then [v] else []) ++ pick f l := by
  unfold pick
  rw [List.filterMap_cons]
  by_cases h : g = f <;> simp [h]

theorem pick_opt (f g v : Str) :
    pick f (if v = [] then [] else [(g, v)]) = if g = f then (given v).toList else [] := by
  unfold given pick
  by_cases hv : v = [] <;> by_cases hg : g = f <;> simp [hv, hg]

/-- The options of a submission on PBS. -/
theorem pbs_letters {home : Str → Option Str} {b : Sys} {c : Clu} {worker : Option Str} {s : Submission}
    (h : pbsSubmit home b c worker = some s) :
    ∃ stage resources, s.cmd.head? = some b.submit ∧
      resourceList (kindOf worker c.conf.schedulerResources c.conf.workerResources)
        (kindOf worker c.conf.schedulerCores c.conf.workerCores)
        (kindOf worker c.conf.schedulerMemory c.conf.workerMemory) = some resources ∧
      ((c.conf.useStagein = false ∧ stage = []) ∨ (c.conf.useStagein = true ∧ ∃ d, stagingDir home c = some d ∧
        stage = [("-W".toList, "stagein=.@".toList ++ b.hostname ++ ":".toList ++ d ++ "/*".toList)])) ∧
      letters s.cmd.tail = ("-N".toList, "dask-gateway".toList) ::
        ((if c.conf.queue = [] then [] else [("-q".toList, c.conf.queue)]) ++
        ((if c.conf.account = [] then [] else [("-A".toList, c.conf.account)]) ++
        ((if c.conf.project = [] then [] else [("-P".toList, c.conf.project)]) ++
        (("-j".toList, "eo".toList) :: ("-R".toList, "eo".toList) :: ("-W".toList, "sandbox=PRIVATE".toList) ::
        (stage ++ [("-v".toList, Env.exported s.env), ("-l".toList, resources)]))))) := by
  unfold pbsSubmit at h
  dsimp only at h
  split at h
  · rename_i stage resources cert key hs hr ht
    have hres : resourceList (kindOf worker c.conf.schedulerResources c.conf.workerResources)
        (kindOf worker c.conf.schedulerCores c.conf.workerCores)
        (kindOf worker c.conf.schedulerMemory c.conf.workerMemory) = some resources := by
      cases worker <;> exact hr
    have hst : (c.conf.useStagein = false ∧ stage = []) ∨ (c.conf.useStagein = true ∧ ∃ d, stagingDir home c = some d ∧
        stage = ["-Wstagein=.@".toList ++ b.hostname ++ ":".toList ++ d ++ "/*".toList]) := by
      by_cases hu : c.conf.useStagein
      · rw [if_pos hu] at hs
        cases hd : stagingDir home c with
        | none => rw [hd] at hs; cases hs
        | some d => rw [hd] at hs; exact Or.inr ⟨hu, d, rfl, (by simpa using hs.symm)⟩
      · rw [if_neg hu] at hs
        exact Or.inl ⟨by simpa using hu, by simpa using hs.symm⟩
    have hstage : ∀ l, letters (stage ++ l) = (stage.map fun a => (a.take 2, a.drop 2)) ++ letters l := by
      intro l
      rcases hst with ⟨_, e⟩ | ⟨_, d, _, e⟩
      · rw [e]; rfl
      · subst e
        cases l <;> rfl
    have hnil : ∀ (e r sc : Str), letters ["-v".toList, e, "-l".toList, r, "--".toList, "/bin/sh".toList, "-c".toList, sc] =
        [("-v".toList, e), ("-l".toList, r)] := fun _ _ _ => rfl
    have hmid : ∀ l, letters (["-j".toList, "eo".toList, "-R".toList, "eo".toList, "-Wsandbox=PRIVATE".toList] ++ l) =
        ("-j".toList, "eo".toList) :: ("-R".toList, "eo".toList) :: ("-W".toList, "sandbox=PRIVATE".toList) :: letters l := by
      intro l
      cases l <;> rfl
    have hN : ∀ l, letters ("-N".toList :: "dask-gateway".toList :: l) = ("-N".toList, "dask-gateway".toList) :: letters l :=
      fun _ => rfl
    refine ⟨stage.map fun a => (a.take 2, a.drop 2), resources, ?_, hres, ?_, ?_⟩
    · cases h; rfl
    · rcases hst with ⟨hu, e⟩ | ⟨hu, d, hd, e⟩
      · exact Or.inl ⟨hu, by rw [e]; rfl⟩
      · exact Or.inr ⟨hu, d, hd, by rw [e]; rfl⟩
    · cases h
      dsimp only
      rw [List.append_assoc, List.append_assoc, List.append_assoc, List.append_assoc, List.append_assoc,
        List.cons_append, List.tail_cons, List.cons_append, List.cons_append, List.nil_append, hN,
        letters_opt _ _ _ (by decide), letters_opt _ _ _ (by decide), letters_opt _ _ _ (by decide), hmid, hstage, hnil]
  · cases h

/-- C123 for PBS. The options the submission command reads are exactly: the name, the configured queue, account and
project (none if not configured), that output is merged and removed, a private sandbox, the files to copy there if that
is configured, the variables to export, and the configured resources of the kind of job. -/
theorem C123_pbs (home : Str → Option Str) (b : Sys) (c : Clu) (worker : Option Str) (s : Submission)
    (h : pbsSubmit home b c worker = some s) :
    s.cmd.head? = some b.submit ∧
      valuesOf "-N".toList s.cmd = ["dask-gateway".toList] ∧
      valuesOf "-q".toList s.cmd = (given c.conf.queue).toList ∧
      valuesOf "-A".toList s.cmd = (given c.conf.account).toList ∧
      valuesOf "-P".toList s.cmd = (given c.conf.project).toList ∧
      valuesOf "-v".toList s.cmd = [Env.exported s.env] ∧
      (∃ r, valuesOf "-l".toList s.cmd = [r] ∧
        format (kindOf worker c.conf.schedulerResources c.conf.workerResources)
          [("cores".toList, Nat.toDigits 10 (kindOf worker c.conf.schedulerCores c.conf.workerCores)),
           ("memory".toList, pbsFormat (kindOf worker c.conf.schedulerMemory c.conf.workerMemory))] = some r) ∧
      (kindOf worker c.conf.schedulerResources c.conf.workerResources = defaultResources →
        valuesOf "-l".toList s.cmd = ["select=1:ncpus=".toList ++
          Nat.toDigits 10 (kindOf worker c.conf.schedulerCores c.conf.workerCores) ++ ":mem=".toList ++
          pbsFormat (kindOf worker c.conf.schedulerMemory c.conf.workerMemory)]) ∧
      (c.conf.useStagein = false → valuesOf "-W".toList s.cmd = ["sandbox=PRIVATE".toList]) ∧
      (c.conf.useStagein = true → ∃ d, stagingDir home c = some d ∧ valuesOf "-W".toList s.cmd =
        ["sandbox=PRIVATE".toList, "stagein=.@".toList ++ b.hostname ++ ":".toList ++ d ++ "/*".toList]) := by
  obtain ⟨stage, resources, hhead, hres, hst, hl⟩ := pbs_letters h
  have hne : ∀ f, f ≠ "-W".toList → pick f stage = [] := by
    intro f hf
    rcases hst with ⟨_, e⟩ | ⟨_, d, _, e⟩
    · rw [e]; rfl
    · rw [e, pick_cons, if_neg (fun e => hf e.symm)]; rfl
  have key : ∀ f, valuesOf f s.cmd = _ := fun f => by
    rw [valuesOf, hl, pick_cons, pick_append, pick_append, pick_append, pick_cons, pick_cons, pick_cons, pick_append,
      pick_cons, pick_cons, pick_opt, pick_opt, pick_opt, show pick f [] = [] from rfl]
  have hl : valuesOf "-l".toList s.cmd = [resources] := by rw [key, hne _ (by decide)]; rfl
  refine ⟨hhead, ?_, ?_, ?_, ?_, ?_, ⟨resources, hl, hres⟩, ?_, ?_, ?_⟩
  · rw [key, hne _ (by decide)]; rfl
  · rw [key, hne _ (by decide)]; simp
  · rw [key, hne _ (by decide)]; simp
  · rw [key, hne _ (by decide)]; simp
  · rw [key, hne _ (by decide)]; rfl
  · intro hd
    rw [hd, format_default] at hres
    rw [hl, Option.some.inj hres]
  · intro hu
    rcases hst with ⟨_, e⟩ | ⟨hu', _⟩
    · rw [key, e]; rfl
    · rw [hu] at hu'; cases hu'
  · intro hu
    rcases hst with ⟨hu', _⟩ | ⟨_, d, hd, e⟩
    · rw [hu] at hu'; cases hu'
    · refine ⟨d, hd, ?_⟩
      rw [key, e, pick_cons]
      rfl

end Verif.Batch
