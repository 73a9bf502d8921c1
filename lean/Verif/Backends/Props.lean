import Verif.Backends.Model
/-! Properties C60, C61, C83, C84 and C85: batch jobs, status checks and local processes. -/
set_option linter.unusedSimpArgs false
set_option linter.unusedVariables false
namespace Verif.Backends

/-! ### C60 -/

/-- Specification: the number of bytes that a request stands for, with the given units. -/
def bytesOf (units : List (Str × Nat)) (s : Str) : Option Nat :=
  let digits := s.takeWhile Char.isDigit
  let unit := s.dropWhile Char.isDigit
  if digits = [] then none else (lookup units unit).map (fun u => Nat.ofDigitChars 10 digits 0 * u)

/-- Specification: the units of Slurm. -/
def slurmUnits : List (Str × Nat) :=
  [("K".toList, 1024), ("M".toList, 1024 ^ 2), ("G".toList, 1024 ^ 3), ("T".toList, 1024 ^ 4)]

/-- Specification: the units of PBS. -/
def pbsUnits : List (Str × Nat) :=
  [("B".toList, 1), ("kB".toList, 1024), ("MB".toList, 1024 ^ 2), ("GB".toList, 1024 ^ 3)]

private theorem digits_all (n : Nat) : ∀ c ∈ Nat.toDigits 10 n, c.isDigit = true :=
  fun c hc => Nat.isDigit_of_mem_toDigits (by decide) (by decide) hc

private theorem takeWhile_append {l m : Str} (h : ∀ c ∈ l, c.isDigit = true)
    (hm : m.takeWhile Char.isDigit = []) :
    (l ++ m).takeWhile Char.isDigit = l ∧ (l ++ m).dropWhile Char.isDigit = m := by
  induction l with
  | nil =>
    refine ⟨hm, ?_⟩
    cases m with
    | nil => rfl
    | cons x t =>
      rw [List.takeWhile_cons] at hm
      split at hm
      · cases hm
      · rename_i hx
        rw [List.nil_append, List.dropWhile_cons, if_neg hx]
  | cons x t ih =>
    have hx := h x List.mem_cons_self
    obtain ⟨h1, h2⟩ := ih (fun c hc => h c (List.mem_cons_of_mem _ hc))
    refine ⟨?_, ?_⟩
    · rw [List.cons_append, List.takeWhile_cons, if_pos hx, h1]
    · rw [List.cons_append, List.dropWhile_cons, if_pos hx, h2]

private theorem bytes_digits (units : List (Str × Nat)) (n : Nat) (u : Str)
    (hu : u.takeWhile Char.isDigit = []) :
    bytesOf units (Nat.toDigits 10 n ++ u) = (lookup units u).map (fun k => n * k) := by
  obtain ⟨h1, h2⟩ := takeWhile_append (digits_all n) hu
  unfold bytesOf
  rw [h1, h2]
  dsimp only
  rw [if_neg Nat.toDigits_ne_nil, Nat.ofDigitChars_ten_toDigits]

private theorem ceil_spec {n unit : Nat} (hu : 0 < unit) (hn : n < 2 ^ 53) (h : 10 * unit ≤ n) :
    n ≤ ceilDiv n unit * unit ∧ 10 * (ceilDiv n unit * unit) ≤ 11 * n := by
  have hr : roundFloat n = n := if_pos hn
  unfold ceilDiv
  rw [hr]
  have h1 := Nat.div_add_mod (n + (unit - 1)) unit
  have h2 := Nat.mod_lt (n + (unit - 1)) hu
  rw [Nat.mul_comm] at h1
  omega

/-- C60, in part: the memory requested of Slurm is at least the configured amount, and at most a tenth
more, for amounts from 10 KiB on that a float represents exactly. Missing: smaller and larger ones; see
`C60_small_violated` and `C60_large_violated`. -/
theorem C60_slurm_partial (n : Nat) (h1 : 10 * 1024 ≤ n) (h2 : n < 2 ^ 53) :
    ∃ m, bytesOf slurmUnits (slurmFormat n) = some m ∧ n ≤ m ∧ 10 * m ≤ 11 * n := by
  unfold slurmFormat
  split
  · rename_i h
    exact ⟨_, bytes_digits _ _ _ (by decide), ceil_spec (by decide) h2 h⟩
  · split
    · rename_i h
      exact ⟨_, bytes_digits _ _ _ (by decide), ceil_spec (by decide) h2 h⟩
    · exact ⟨_, bytes_digits _ _ _ (by decide), ceil_spec (by decide) h2 h1⟩

/-- C60, in part: the memory requested of PBS is at least the configured amount, and at most a tenth more,
for amounts that a float represents exactly. Missing: larger ones; see `C60_large_violated`. -/
theorem C60_pbs_partial (n : Nat) (h2 : n < 2 ^ 53) :
    ∃ m, bytesOf pbsUnits (pbsFormat n) = some m ∧ n ≤ m ∧ 10 * m ≤ 11 * n := by
  unfold pbsFormat
  split
  · rename_i h
    exact ⟨_, bytes_digits _ _ _ (by decide), ceil_spec (by decide) h2 h⟩
  · split
    · rename_i h
      exact ⟨_, bytes_digits _ _ _ (by decide), ceil_spec (by decide) h2 h⟩
    · split
      · rename_i h
        exact ⟨_, bytes_digits _ _ _ (by decide), ceil_spec (by decide) h2 h⟩
      · refine ⟨n * 1, bytes_digits _ _ _ (by decide), ?_, ?_⟩ <;> omega

/-- C60 does not hold for Slurm below 10 KiB: one KiB is requested whatever the amount. -/
theorem C60_small_violated (n : Nat) (h1 : 1024 < n) (h2 : n < 10 * 1024) :
    ∃ m, bytesOf slurmUnits (slurmFormat n) = some m ∧ m < n := by
  refine ⟨1024, ?_, h1⟩
  unfold slurmFormat
  rw [if_neg (by omega), if_neg (by omega), if_neg (by omega)]
  decide

/-- C60 does not hold where a float does not represent the amount: it may be rounded down. -/
theorem C60_large_violated : ∃ n m, bytesOf slurmUnits (slurmFormat n) = some m ∧
    bytesOf pbsUnits (pbsFormat n) = some m ∧ m < n :=
  ⟨2 ^ 53 + 1, 2 ^ 53, by decide +kernel, by decide +kernel, by decide⟩

/-- Two gigabytes and a bit. -/
example : slurmFormat (2 * 1024 ^ 3 + 1) = "2049M".toList ∧ pbsFormat (2 * 1024 ^ 3 + 1) = "2049MB".toList ∧
    slurmFormat (10 * 1024 ^ 3 + 1) = "11G".toList ∧ pbsFormat 5000 = "5000B".toList := by decide +kernel

/-! ### C61 -/

/-- Specification: the last line of the output for a job. -/
def lastRow (rows : List (Str × Str)) (j : Str) : Option Str :=
  (rows.reverse.find? (fun r => r.1 = j)).map (·.2)

private theorem lookup_find {α : Type} (l : List (Str × α)) (w : Str) :
    lookup l w = (l.find? (fun e => e.1 = w)).map Prod.snd := by
  induction l with
  | nil => rfl
  | cons e l ih =>
    rw [lookup_cons, List.find?_cons]
    by_cases h : e.1 = w
    · simp [h]
    · simp [h, ih]

private theorem parse_lookup (active : List Str) (rows : List (Str × Str)) (j : Str) :
    lookup (parseStates active rows) j = (lastRow rows j).map (fun s => active.contains s) := by
  unfold parseStates lastRow
  rw [lookup_ofList, ← List.map_reverse, lookup_find, List.find?_map]
  have : ((fun (e : Str × Bool) => decide (e.1 = j)) ∘ fun (r : Str × Str) => (r.1, active.contains r.2)) =
      fun r => decide (r.1 = j) := rfl
  rw [this]
  cases rows.reverse.find? (fun r => decide (r.1 = j)) <;> rfl

private theorem idMap_aux (objs : List Job) (m : List (Str × Str))
    (hn : (objs.map (·.name)).Nodup) :
    let f := objs.foldl (fun m (x : Job) => match x.jobId with | some j => Dict.set m x.name j | none => m) m
    (∀ x ∈ objs, lookup m x.name = none → lookup f x.name = x.jobId) ∧
    (∀ k, (∀ x ∈ objs, x.name ≠ k) → lookup f k = lookup m k) := by
  induction objs generalizing m with
  | nil => exact ⟨fun x hx => (by cases hx), fun _ _ => rfl⟩
  | cons y l ih =>
    rw [List.map_cons, List.nodup_cons] at hn
    dsimp only
    rw [List.foldl_cons]
    obtain ⟨i1, i2⟩ := ih (match y.jobId with | some j => Dict.set m y.name j | none => m) hn.2
    refine ⟨fun x hx hm => ?_, fun k hk => ?_⟩
    · rcases List.mem_cons.1 hx with rfl | hx
      · rw [i2 x.name (fun z hz e => hn.1 (List.mem_map.2 ⟨z, hz, e⟩))]
        cases hj : x.jobId with
        | none => exact hm
        | some j => dsimp only; rw [lookup_set, if_pos rfl]
      · refine i1 x hx ?_
        have hne : y.name ≠ x.name := fun e => hn.1 (List.mem_map.2 ⟨x, hx, e.symm⟩)
        cases y.jobId with
        | none => exact hm
        | some j => dsimp only; rw [lookup_set, if_neg hne]; exact hm
    · rw [i2 k (fun x hx => hk x (List.mem_cons_of_mem _ hx))]
      have hne := hk y List.mem_cons_self
      cases y.jobId with
      | none => rfl
      | some j => dsimp only; rw [lookup_set, if_neg hne]

/-- C61 for batch systems: one answer for each cluster or worker, which tells whether the batch system
lists its own job in a state that counts as alive. -/
theorem C61_jobs (query : List Str → Option (List (Str × Str))) (active : List Str) (objs : List Job)
    (hn : (objs.map Job.name).Nodup) (rows : List (Str × Str)) (hq : ∀ ids, query ids = some rows) :
    ∃ out, jobCheck query active objs = some out ∧ out.length = objs.length ∧
      ∀ i (h : i < objs.length) (h' : i < out.length), out[i] = true ↔
        ∃ j s, objs[i].jobId = some j ∧ lastRow rows j = some s ∧ s ∈ active := by
  have hid : ∀ x ∈ objs, lookup (idMap objs) x.name = x.jobId := fun x hx =>
    (idMap_aux objs [] hn).1 x hx rfl
  unfold jobCheck checkJobs
  by_cases hids : (idMap objs).map (·.2) = []
  · rw [if_pos hids]
    refine ⟨_, rfl, List.length_map .., fun i h h' => ?_⟩
    rw [List.getElem_map]
    rw [hid _ (List.getElem_mem h)]
    have he : idMap objs = [] := List.map_eq_nil_iff.1 hids
    have hnone : objs[i].jobId = none := by rw [← hid _ (List.getElem_mem h), he]; rfl
    rw [hnone]
    simp
  · rw [if_neg hids, hq]
    refine ⟨_, rfl, List.length_map .., fun i h h' => ?_⟩
    rw [List.getElem_map]
    rw [hid _ (List.getElem_mem h)]
    cases hj : objs[i].jobId with
    | none => simp
    | some j =>
      dsimp only
      rw [parse_lookup]
      cases hl : lastRow rows j with
      | none => simp [hl]
      | some s => simp [hl]

/-- C61 for the local backend: one answer for each, which tells whether its own process exists. -/
theorem C61_local (running : Nat → Bool) (pids : List (Option Nat)) :
    (localCheck running pids).length = pids.length ∧
    ∀ i (h : i < pids.length) (h' : i < (localCheck running pids).length),
      (localCheck running pids)[i] = true ↔ ∃ pid, pids[i] = some pid ∧ running pid = true := by
  refine ⟨List.length_map .., fun i h h' => ?_⟩
  rw [show (localCheck running pids)[i] = (match pids[i] with | some pid => running pid | none => false) from
    List.getElem_map ..]
  cases hp : pids[i] with
  | none => simp
  | some p => simp

/-- Specification: whether a worker on YARN is alive. -/
def YAlive (apps : Str → Option (Option (List Str))) (w : YWorker) : Bool :=
  match apps w.cluster, w.container with
  | some (some l), some c => l.contains c
  | _, _ => false

private theorem grouped_one (c : Str) (l acc : List YWorker) (h : ∀ w ∈ l, w.cluster = c) (hne : acc ≠ []) :
    l.foldl (fun g (w : YWorker) => Dict.set g w.cluster ((lookup g w.cluster).getD [] ++ [w])) [(c, acc)] =
      [(c, acc ++ l)] := by
  induction l generalizing acc with
  | nil => rw [List.append_nil]; rfl
  | cons w l ih =>
    rw [List.foldl_cons]
    have hw := h w List.mem_cons_self
    have e : Dict.set [(c, acc)] w.cluster ((lookup [(c, acc)] w.cluster).getD [] ++ [w]) = [(c, acc ++ [w])] := by
      rw [hw]
      simp [Dict.set, lookup_cons]
    rw [e, ih (acc ++ [w]) (fun x hx => h x (List.mem_cons_of_mem _ hx)) (by simp), List.append_assoc]
    rfl

private theorem results_lookup (containers : Option (List Str)) (ws : List YWorker)
    (hn : (ws.map (·.name)).Nodup) (w : YWorker) (hw : w ∈ ws) :
    lookup (Dict.update [] (groupResults containers ws)) w.name =
      some (match containers, w.container with | some l, some c => l.contains c | _, _ => false) := by
  have hk : Dict.keys (groupResults containers ws) = ws.map (·.name) := by
    unfold groupResults Dict.keys
    cases containers <;> simp [Function.comp_def]
  rw [← ofList_eq, ofList_nodup (by rw [hk]; exact hn)]
  refine lookup_of_mem (by rw [hk]; exact hn) ?_
  unfold groupResults
  cases containers with
  | none => exact List.mem_map.2 ⟨w, hw, rfl⟩
  | some l =>
    refine List.mem_map.2 ⟨w, hw, ?_⟩
    cases w.container <;> rfl

/-- C61 for workers on YARN, in part: the answers are right if all workers are of one cluster. Missing:
workers of several clusters; see `C61_yarn_violated`. -/
theorem C61_yarn_partial (apps : Str → Option (Option (List Str))) (workers : List YWorker) (c : Str)
    (h1 : ∀ w ∈ workers, w.cluster = c) (ha : apps c ≠ none) (hn : (workers.map YWorker.name).Nodup) :
    yarnCheck apps workers = some (workers.map (YAlive apps)) := by
  cases workers with
  | nil => rfl
  | cons w l =>
    have hg : grouped (w :: l) = [(c, w :: l)] := by
      unfold grouped
      rw [List.foldl_cons]
      have e : Dict.set ([] : List (Str × List YWorker)) w.cluster ((lookup ([] : List (Str × List YWorker)) w.cluster).getD [] ++ [w]) = [(c, [w])] := by
        rw [h1 w List.mem_cons_self]; rfl
      rw [e, grouped_one c l [w] (fun x hx => h1 x (List.mem_cons_of_mem _ hx)) (by simp)]
      rfl
    unfold yarnCheck
    rw [hg]
    cases hc : apps c with
    | none => exact absurd hc ha
    | some containers =>
      have : yarnLoop apps [(c, w :: l)] [] (w :: l) =
          some (Dict.update [] (groupResults containers (w :: l)), w :: l) := by
        unfold yarnLoop
        rw [hc]
        rfl
      rw [this]
      change some ((w :: l).map _) = _
      refine congrArg some (List.map_congr_left fun x hx => ?_)
      dsimp only
      rw [results_lookup containers _ hn x hx]
      unfold YAlive
      rw [h1 x hx, hc]
      cases containers <;> cases x.container <;> rfl

/-- C61 does not hold on YARN: of the workers of several clusters only those of the last are answered for,
and the answers are taken for others. Here a healthy worker is failed because that of another cluster is
dead, and the dead one is not. -/
theorem C61_yarn_violated : ∃ (apps : Str → Option (Option (List Str))) (a b : YWorker),
    YAlive apps a = true ∧ YAlive apps b = false ∧ a.cluster ≠ b.cluster ∧ a.name ≠ b.name ∧
    ∃ out, yarnCheck apps [a, b] = some out ∧ out ≠ [a, b].map (YAlive apps) ∧ failing [a, b] out = [a] :=
  ⟨fun c => if c = ['1'] then some (some [['x']]) else some (some []),
    { name := ['a'], cluster := ['1'], container := some ['x'] },
    { name := ['b'], cluster := ['2'], container := some ['y'] },
    by decide, by decide, by decide, by decide, [false], by decide, by decide, by decide⟩

/-- C61 for clusters on YARN, in part: the answers are right if each has an application and its report can
be got. Missing: else nothing is answered for any cluster; see `C61_yarn_clusters_violated`. -/
theorem C61_yarn_clusters_partial (alive : Str → Bool) (apps : List Str) :
    yarnCheckClusters (fun a => some (alive a)) (apps.map some) = some (apps.map alive) := by
  induction apps with
  | nil => rfl
  | cons a l ih =>
    rw [List.map_cons]
    unfold yarnCheckClusters
    dsimp only
    rw [ih]
    rfl

/-- C61 does not hold for clusters on YARN: one without application keeps all from being checked. -/
theorem C61_yarn_clusters_violated (report : Str → Option Bool) (l m : List (Option Str)) :
    yarnCheckClusters report (l ++ none :: m) = none := by
  induction l with
  | nil => rfl
  | cons a l ih =>
    rw [List.cons_append]
    cases a with
    | none => rfl
    | some a =>
      unfold yarnCheckClusters
      split
      · rfl
      · rw [ih]; rfl

/-- C61 does not hold for the backend within the process: the answers are inverted for all that it
started. -/
theorem C61_inprocess_violated (closed : Str → Option Bool) (names : List Str) (i : Nat)
    (h : i < names.length) (h' : i < (inprocessCheck closed names).length) :
    (inprocessCheck closed names)[i] = true ↔ closed names[i] = some true := by
  rw [show (inprocessCheck closed names)[i] = (match closed names[i] with | some c => !!c | none => false) from
    List.getElem_map ..]
  cases hc : closed names[i] with
  | none => simp
  | some c => simp

/-- Two jobs, of which one was listed and one never submitted; a worker of YARN. -/
example :
    jobCheck (fun _ => some [(['7'], ['R']), (['8'], ['C'])]) [['R']]
      [{ name := ['a'], jobId := some ['8'] }, { name := ['b'], jobId := none },
        { name := ['c'], jobId := some ['7'] }] = some [false, false, true] ∧
    yarnCheck (fun _ => some (some [['x']])) [{ name := ['a'], cluster := ['1'], container := some ['y'] },
      { name := ['b'], cluster := ['1'], container := some ['x'] }] = some [false, true] := by decide

/-! ### C83 -/

private theorem join_ne {a b : Str} (hb : b.head? ≠ some '/') (hne : b ≠ []) (ha : a ≠ []) :
    ∃ s, pathJoin a b = a ++ s ∧ s ≠ [] := by
  unfold pathJoin
  rw [if_neg hb]
  split
  · exact ⟨b, rfl, hne⟩
  · exact ⟨'/' :: b, rfl, by simp⟩

/-- C83, in part: the user becomes the owner of the working directory and the two directories in it.
Missing: the files of the credentials; see `C83_files_violated`. -/
theorem C83_directories_partial (workdir : Str) :
    workdir ∈ ownedPaths workdir ∧ certsDir workdir ∈ ownedPaths workdir ∧ logsDir workdir ∈ ownedPaths workdir := by
  unfold ownedPaths
  exact ⟨by simp, by simp, by simp⟩

/-- C83 does not hold: the file of the key is not given to the user. -/
theorem C83_files_violated (workdir : Str) (h : workdir ≠ []) : keyPath workdir ∉ ownedPaths workdir := by
  obtain ⟨s, hs, hs0⟩ := join_ne (a := workdir) (b := ".certs".toList) (by decide) (by decide) h
  have hc : certsDir workdir = workdir ++ s := hs
  obtain ⟨t, ht, ht0⟩ := join_ne (a := certsDir workdir) (b := "dask.pem".toList) (by decide) (by decide)
    (by rw [hc]; exact fun e => h (List.append_eq_nil_iff.1 e).1)
  have hk : keyPath workdir = certsDir workdir ++ t := ht
  have hl1 : workdir.length ≥ 1 := by
    cases workdir with
    | nil => exact absurd rfl h
    | cons x l => simp
  have hl2 : s.length ≥ 1 := List.length_pos_iff.2 hs0
  have hl3 : t.length ≥ 1 := List.length_pos_iff.2 ht0
  have hlen : (keyPath workdir).length = workdir.length + s.length + t.length := by
    rw [hk, hc, List.length_append, List.length_append]
  intro hm
  unfold ownedPaths at hm
  rw [List.append_assoc, List.mem_append, List.mem_append] at hm
  rcases hm with hm | hm | hm
  · rcases List.mem_cons.1 hm with hm | hm
    · rw [hm] at hlen; omega
    · rcases List.mem_cons.1 hm with hm | hm
      · have := congrArg List.length hm
        rw [hlen, hc, List.length_append] at this; omega
      · have hm := List.mem_singleton.1 hm
        have hlast : (keyPath workdir).getLast? = some 'm' := by
          unfold keyPath pathJoin
          rw [if_neg (by decide)]
          split
          · rw [List.getLast?_append]; rfl
          · rw [List.getLast?_append]; rfl
        have hlast2 : (logsDir workdir).getLast? = some 's' := by
          unfold logsDir pathJoin
          rw [if_neg (by decide)]
          split
          · rw [List.getLast?_append]; rfl
          · rw [List.getLast?_append]; rfl
        rw [hm, hlast2] at hlast
        exact absurd hlast (by decide)
  · obtain ⟨c, _, e⟩ := List.mem_map.1 hm
    have := congrArg List.length e
    rw [hlen] at this
    simp at this
    omega
  · obtain ⟨c, _, e⟩ := List.mem_map.1 hm
    have := congrArg List.length e
    rw [hlen] at this
    simp at this
    omega

/-- C83 does not hold: with any absolute working directory the user becomes the owner of the root
directory, and where there are no files with names of one letter the start then fails. -/
theorem C83_root_violated (workdir : Str) (exist : Str → Bool)
    (hdir : exist workdir = true ∧ exist (certsDir workdir) = true ∧ exist (logsDir workdir) = true)
    (hroot : exist ['/'] = true) (habs : workdir.head? = some '/') :
    ['/'] ∈ (setOwners exist (ownedPaths workdir)).1 ∧
    ((∀ c, c ≠ '/' → exist [c] = false) → (setOwners exist (ownedPaths workdir)).2 = false) := by
  have hne : workdir ≠ [] := by intro e; rw [e] at habs; cases habs
  obtain ⟨s, hs, _⟩ := join_ne (a := workdir) (b := ".certs".toList) (by decide) (by decide) hne
  have hc : certsDir workdir = workdir ++ s := hs
  obtain ⟨t, ht, _⟩ := join_ne (a := certsDir workdir) (b := "dask.crt".toList) (by decide) (by decide)
    (by rw [hc]; exact fun e => hne (List.append_eq_nil_iff.1 e).1)
  have hcp : certPath workdir = certsDir workdir ++ t := ht
  have hhead : ∃ r, certPath workdir = '/' :: r := by
    rw [hcp, hc]
    cases workdir with
    | nil => cases habs
    | cons x w =>
      cases habs
      exact ⟨_, rfl⟩
  obtain ⟨r, hr⟩ := hhead
  have hset : ∀ (p : Str) l, exist p = true →
      setOwners exist (p :: l) = (p :: (setOwners exist l).1, (setOwners exist l).2) := by
    intro p l hp
    rw [show setOwners exist (p :: l) = if exist p then (p :: (setOwners exist l).1, (setOwners exist l).2) else ([], false) from rfl,
      if_pos hp]
  have hown : ownedPaths workdir = workdir :: certsDir workdir :: logsDir workdir :: ['/'] ::
      (r.map (fun c => [c]) ++ (keyPath workdir).map (fun c => [c])) := by
    unfold ownedPaths
    rw [hr]
    rfl
  rw [hown, hset _ _ hdir.1, hset _ _ hdir.2.1, hset _ _ hdir.2.2, hset _ _ hroot]
  refine ⟨by simp, fun hno => ?_⟩
  dsimp only
  -- a character other than the slash ends it
  have hbad : ∀ l : List Str, (∃ c, c ≠ '/' ∧ [c] ∈ l) → (setOwners exist l).2 = false := by
    intro l hl
    induction l with
    | nil => obtain ⟨c, _, hm⟩ := hl; cases hm
    | cons p l ih =>
      by_cases hp : exist p = true
      · rw [hset p l hp]
        obtain ⟨c, hcne, hm⟩ := hl
        rcases List.mem_cons.1 hm with hm | hm
        · rw [← hm, hno c hcne] at hp; cases hp
        · exact ih ⟨c, hcne, hm⟩
      · rw [show setOwners exist (p :: l) = if exist p then (p :: (setOwners exist l).1, (setOwners exist l).2) else ([], false) from rfl,
          if_neg hp]
  refine hbad _ ⟨'t', by decide, List.mem_append.2 (Or.inl (List.mem_map.2 ⟨'t', ?_, rfl⟩))⟩
  have hmem : 't' ∈ certPath workdir := by
    unfold certPath pathJoin
    rw [if_neg (by decide)]
    split
    · exact List.mem_append.2 (Or.inr (by decide))
    · exact List.mem_append.2 (Or.inr (by decide))
  rw [hr] at hmem
  rcases List.mem_cons.1 hmem with h | h
  · cases h
  · exact h

/-- The working directory `/w`. -/
example : ownedPaths "/w".toList = ["/w".toList, "/w/.certs".toList, "/w/logs".toList] ++
    "/w/.certs/dask.crt".toList.map (fun c => [c]) ++ "/w/.certs/dask.pem".toList.map (fun c => [c]) := by decide

/-! ### C84 -/

/-- Specification: attempts one after the other. -/
def attempts (s : Staged) (l : List Attempt) : Staged := l.foldl (fun s a => (stopCluster s a).1) s

/-- C84, in part: the first attempt to stop a cluster that is not kept from it by its staging directory asks
the batch system to cancel the job, and reports whether it worked; so does every attempt for a worker.
Missing: attempts after the directory was removed; see `C84_violated`. -/
theorem C84_cancels_partial (job : Bool) (a : Attempt) :
    (a.removable = true → stopCluster { dir := true, job } a =
      ({ dir := false, job := job && !a.cancels }, a.cancels)) ∧
    stopWorker job a = (job && !a.cancels, a.cancels) := by
  refine ⟨fun h => ?_, ?_⟩
  · unfold stopCluster
    rw [if_neg (by simp), if_neg (by rw [h]; simp)]
    cases a.cancels <;> cases job <;> rfl
  · unfold stopWorker
    cases a.cancels <;> cases job <;> rfl

/-- C84: a stop of a cluster that reports success has cancelled the job. -/
theorem C84_success (s : Staged) (a : Attempt) (h : (stopCluster s a).2 = true) :
    (stopCluster s a).1.job = false := by
  unfold stopCluster at h ⊢
  split at h
  · cases h
  · split at h
    · cases h
    · rename_i h1 h2
      rw [if_neg h1, if_neg h2]
      rw [show a.cancels = true from h]
      rfl

/-- C84 does not hold in full: if the batch system does not cancel the job at the first attempt, then no
further attempt asks it to, since the staging directory is gone. -/
theorem C84_violated (a : Attempt) (hr : a.removable = true) (hc : a.cancels = false) (more : List Attempt) :
    (attempts { dir := true, job := true } (a :: more)).job = true ∧
    ∀ b, (stopCluster (attempts { dir := true, job := true } (a :: more)) b).2 = false := by
  have h1 : (stopCluster { dir := true, job := true } a).1 = { dir := false, job := true } := by
    rw [(C84_cancels_partial true a).1 hr, hc]; rfl
  have h2 : ∀ l, attempts { dir := false, job := true } l = { dir := false, job := true } := by
    intro l
    induction l with
    | nil => rfl
    | cons b l ih => exact ih
  have h3 : attempts { dir := true, job := true } (a :: more) = { dir := false, job := true } := by
    rw [← h2 more, ← h1]
    rfl
  rw [h3]
  exact ⟨rfl, fun _ => rfl⟩

/-- A first attempt that works, and one that does not. -/
example :
    attempts { dir := true, job := true } [{ removable := true, cancels := true }] = { dir := false, job := false } ∧
    attempts { dir := true, job := true } [{ removable := true, cancels := false }, { removable := true, cancels := true }] =
      { dir := false, job := true } := by decide

/-! ### C85 -/

private theorem wait_spec (alive : Nat → Bool) (start T : Nat) :
    ∀ (fuel e : Nat), (T : Int) + 2 ≤ fuel + e → e ≤ 2 * T + 1 →
    let r := waitShutdown alive fuel (start + e) (e + 1) ((T : Int) - e)
    start + e ≤ r.2 ∧ r.2 ≤ start + (2 * T + 1) ∧
    (r.1 = true → alive r.2 = false) ∧
    (r.1 = false → start + T < r.2 ∧ (e ≤ T → alive (start + e) = true)) := by
  intro fuel
  induction fuel with
  | zero =>
    intro e hf he
    unfold waitShutdown
    dsimp only
    refine ⟨Nat.le_refl _, by omega, fun h => (by cases h), fun _ => ⟨by omega, fun h => by omega⟩⟩
  | succ f ih =>
    intro e hf he
    unfold waitShutdown
    dsimp only
    split
    · refine ⟨Nat.le_refl _, by dsimp only; omega, fun h => (by cases h), fun _ => ⟨by dsimp only; omega, fun h => by omega⟩⟩
    · split
      · rename_i ha
        exact ⟨Nat.le_refl _, by dsimp only; omega, fun _ => ha, fun h => (by cases h)⟩
      · rename_i ht ha
        have := ih (2 * e + 1) (by omega) (by omega)
        have e1 : start + (2 * e + 1) = start + e + (e + 1) := by omega
        have e2 : 2 * e + 1 + 1 = 2 * (e + 1) := by omega
        have e3 : (T : Int) - ((2 * e + 1 : Nat) : Int) = (T : Int) - e - ((e + 1 : Nat) : Int) := by omega
        rw [e1, e2, e3] at this
        obtain ⟨i1, i2, i3, i4⟩ := this
        refine ⟨by omega, i2, i3, fun h => ⟨(i4 h).1, fun _ => ?_⟩⟩
        cases hx : alive (start + e) with
        | true => rfl
        | false => exact absurd hx ha

private theorem wait_start (alive : Nat → Bool) (start T : Nat) :
    let r := waitShutdown alive (T + 2) start 1 T
    start ≤ r.2 ∧ r.2 ≤ start + (2 * T + 1) ∧ (r.1 = true → alive r.2 = false) ∧
    (r.1 = false → start + T < r.2 ∧ alive start = true) := by
  have := wait_spec alive start T (T + 2) 0 (by omega) (by omega)
  rw [show ((T : Int) - ((0 : Nat) : Int)) = (T : Int) by omega] at this
  obtain ⟨a, b, c, d⟩ := this
  exact ⟨a, b, c, fun h => ⟨(d h).1, (d h).2 (Nat.zero_le _)⟩⟩

private theorem stop_spec (alive : Nat → Bool) (l : List (Sig × Nat)) (now : Nat) :
    (stopProcess alive l now).1.map (·.1) <+: l.map (·.1) ∧
    now ≤ (stopProcess alive l now).2 ∧
    (stopProcess alive l now).2 ≤ now + (l.map (fun m => 2 * m.2 + 1)).foldr (· + ·) 0 ∧
    (alive (stopProcess alive l now).2 = false ∨ (stopProcess alive l now).1.map (·.1) = l.map (·.1)) ∧
    (∀ p ∈ (stopProcess alive l now).1, now ≤ p.2) := by
  induction l generalizing now with
  | nil => exact ⟨List.prefix_refl _, Nat.le_refl _, Nat.le_refl _, Or.inr rfl, fun p hp => (by cases hp)⟩
  | cons m l ih =>
    obtain ⟨sig, T⟩ := m
    have hw := wait_start alive now T
    unfold stopProcess
    generalize waitShutdown alive (T + 2) now 1 T = r at hw
    obtain ⟨b, t⟩ := r
    dsimp only at hw
    cases b with
    | true =>
      dsimp only
      refine ⟨⟨l.map (·.1), rfl⟩, hw.1, ?_, Or.inl (hw.2.2.1 rfl), fun p hp => ?_⟩
      · rw [List.map_cons, List.foldr_cons]; dsimp only; omega
      · rw [List.mem_singleton.1 hp]; exact Nat.le_refl _
    | false =>
      dsimp only
      obtain ⟨i1, i2, i3, i4, i5⟩ := ih t
      refine ⟨?_, by omega, ?_, ?_, fun p hp => ?_⟩
      · rw [List.map_cons, List.map_cons]
        exact List.prefix_cons_inj _ |>.2 i1
      · rw [List.map_cons, List.foldr_cons]; dsimp only; omega
      · rcases i4 with h | h
        · exact Or.inl h
        · exact Or.inr (by rw [List.map_cons, List.map_cons, h])
      · rcases List.mem_cons.1 hp with rfl | hp
        · exact Nat.le_refl _
        · exact Nat.le_trans hw.1 (i5 p hp)

/-- C85: the interrupt comes first, then the request to terminate, then the kill, and no other. -/
theorem C85_order (alive : Nat → Bool) (a b c now : Nat) :
    (stopProcess alive (methods a b c) now).1.map (·.1) <+: [.int, .term, .kill] :=
  (stop_spec alive (methods a b c) now).1

/-- C85: it ends with the process gone, or after all signals were sent; and in any case within twice the
timeouts and a tenth of a second for each (times are tenths of seconds). -/
theorem C85_bounded (alive : Nat → Bool) (a b c now : Nat) :
    (alive (stopProcess alive (methods a b c) now).2 = false ∨
      (stopProcess alive (methods a b c) now).1.map (·.1) = [.int, .term, .kill]) ∧
    (stopProcess alive (methods a b c) now).2 ≤ now + (20 * a + 20 * b + 20 * c + 3) := by
  obtain ⟨_, _, h3, h4, _⟩ := stop_spec alive (methods a b c) now
  refine ⟨h4, Nat.le_trans h3 ?_⟩
  simp only [methods, List.map_cons, List.map_nil, List.foldr_cons, List.foldr_nil]
  omega

/-- C85: a process that is left alone gets the time it was promised: the request to terminate is sent only
after the timeout of the interrupt, and the kill after that of the request. -/
theorem C85_patient (alive : Nat → Bool) (a b c now t : Nat)
    (h : (stopProcess alive (methods a b c) now).1[1]? = some (.term, t) ∨
      (stopProcess alive (methods a b c) now).1[1]? = some (.kill, t)) : now + 10 * a < t := by
  have hw := wait_start alive now (10 * a)
  unfold methods stopProcess at h
  generalize waitShutdown alive (10 * a + 2) now 1 (10 * a : Nat) = r at hw h
  obtain ⟨x, t1⟩ := r
  dsimp only at hw h
  cases x with
  | true => rcases h with h | h <;> cases h
  | false =>
    dsimp only at h
    have hlt := (hw.2.2.2 rfl).1
    have hfirst : ∀ p, (stopProcess alive [(Sig.term, 10 * b), (Sig.kill, 10 * c)] t1).1[0]? = some p → p.2 = t1 := by
      intro p hp
      unfold stopProcess at hp
      split at hp
      · cases hp; rfl
      · cases hp; rfl
    rcases h with h | h
    · have := hfirst _ h; dsimp only at this; omega
    · have := hfirst _ h; dsimp only at this; omega

/-- C85: and the kill only after the timeouts of both. -/
theorem C85_kill (alive : Nat → Bool) (a b c now t : Nat)
    (h : (.kill, t) ∈ (stopProcess alive (methods a b c) now).1) : now + 10 * a + 10 * b < t := by
  have hw := wait_start alive now (10 * a)
  unfold methods stopProcess at h
  generalize waitShutdown alive (10 * a + 2) now 1 (10 * a : Nat) = r at hw h
  obtain ⟨x, t1⟩ := r
  dsimp only at hw h
  cases x with
  | true => simp at h
  | false =>
    dsimp only at h
    have hlt := (hw.2.2.2 rfl).1
    rcases List.mem_cons.1 h with h | h
    · cases h
    · have hw2 := wait_start alive t1 (10 * b)
      unfold stopProcess at h
      generalize waitShutdown alive (10 * b + 2) t1 1 (10 * b : Nat) = r at hw2 h
      obtain ⟨y, t2⟩ := r
      dsimp only at hw2 h
      cases y with
      | true => simp at h
      | false =>
        dsimp only at h
        have hlt2 := (hw2.2.2.2 rfl).1
        rcases List.mem_cons.1 h with h | h
        · cases h
        · have := (stop_spec alive [(Sig.kill, 10 * c)] t2).2.2.2.2 _ h
          dsimp only at this
          omega

/-- A process that ends two seconds after the interrupt, and one that ignores everything. -/
example :
    stopProcess (fun t => decide (t < 20)) (methods 10 5 5) 0 = ([(.int, 0)], 31) ∧
    (stopProcess (fun _ => true) (methods 10 5 5) 0).1 = [(.int, 0), (.term, 127), (.kill, 190)] := by
  decide +kernel

end Verif.Backends
