import Verif.Batch.Props
import Verif.Batch.Dirs
import Verif.Batch.Text
set_option linter.unusedSimpArgs false
set_option linter.unusedVariables false
/-
Where C119 fails, and cases that meet the hypotheses of C119 to C124.
-/
namespace Verif.Batch
open Verif.Backends (pathJoin slurmFormat pbsFormat)

/-- C119 is violated: the words of the command are joined by blanks and not quoted, so that the command
`["dask-scheduler", "--jupyter-title", "my cluster"]` is run with other words, on every batch system. -/
theorem C119_violated (home : Str → Option Str) (b : Sys) (c : Clu) (env : Str → Option Str)
    (hc : c.conf.schedulerCmd = ["dask-scheduler".toList, "--jupyter-title".toList, "my cluster".toList])
    (hh : PlainWord b.defaultHost) (h1 : PlainWord b.heartbeatPeriod)
    (h2 : PlainWord c.conf.adaptivePeriod) (h3 : PlainWord c.conf.idleTimeout) :
    ∃ opts,
      (∀ s, slurmSubmit home b c none = some s → ∃ t, s.script = some t ∧
        Runs env t ("#!/bin/sh\n".toList ++ c.conf.schedulerSetup)
          (["dask-scheduler".toList, "--jupyter-title".toList, "my".toList, "cluster".toList] ++ opts)) ∧
      (∀ s, pbsSubmit home b c none = some s → ∃ t, s.script = some t ∧
        Runs env t c.conf.schedulerSetup
          (["dask-scheduler".toList, "--jupyter-title".toList, "my".toList, "cluster".toList] ++ opts)) ∧
      Runs env (yarnSchedulerScript b c.conf) c.conf.schedulerSetup
        (["dask-scheduler".toList, "--jupyter-title".toList, "my".toList, "cluster".toList] ++ opts) := by
  let split := { c.conf with schedulerCmd := ["dask-scheduler".toList, "--jupyter-title".toList, "my".toList, "cluster".toList] }
  have hp : PlainCommand (schedulerCommand b split) :=
    schedulerCommand_plain (c := split) ⟨(show ∀ w ∈ ["dask-scheduler".toList, "--jupyter-title".toList, "my".toList,
      "cluster".toList], PlainWord w from by decide), _, _, rfl, by decide, by decide⟩ hh h1 h2 h3
  have he : joinBlank (schedulerCommand b c.conf) = joinBlank (schedulerCommand b split) := by
    unfold schedulerCommand
    rw [hc]
    rfl
  refine ⟨(schedulerCommand b split).drop 4, ?_, ?_, ?_⟩
  · intro s h
    refine ⟨_, slurm_script h, ?_⟩
    dsimp only
    rw [he]
    exact runs_join env _ _ hp
  · intro s h
    refine ⟨_, pbs_script h, ?_⟩
    dsimp only
    rw [he]
    exact runs_join env _ _ hp
  · unfold yarnSchedulerScript
    rw [he]
    exact runs_join env _ _ hp

/-! ### Cases -/

def demoConf : Conf :=
  { schedulerCmd := ["dask-scheduler".toList], workerCmd := ["dask-worker".toList], schedulerSetup := [],
    workerSetup := "module load python".toList, schedulerCores := 1, workerCores := 4, schedulerMemory := 2147483648,
    workerMemory := 4294967296, workerThreads := 8, adaptivePeriod := "3".toList, idleTimeout := "0".toList,
    stagingDirectory := "{home}/.dask-gateway/".toList, partition := "long".toList, account := [], qos := [],
    queue := "workq".toList, project := [], schedulerResources := defaultResources, workerResources := defaultResources,
    useStagein := true }

def demoSys : Sys :=
  { submit := "/usr/bin/sbatch".toList, cancel := "/usr/bin/scancel".toList, status := "/usr/bin/squeue".toList,
    launcher := "/opt/dask-gateway-jobqueue-launcher".toList, hostname := "edge".toList, heartbeatPeriod := "15".toList,
    defaultHost := "0.0.0.0".toList }

def demoClu (name : Str) : Clu :=
  { name := name, user := "alice".toList,
    given := { apiUrl := "http://edge/api".toList, environment := [], token := "t0".toList, name := name, user := "alice".toList },
    conf := demoConf, schedulerAddress := "tls://10.0.0.7:4321".toList, tlsCert := "C".toList, tlsKey := "K".toList }

def demoHome : Str → Option Str := fun u => if u = "alice".toList then some "/home/alice".toList else none

/-- C119: the words are plain. -/
example : PlainCommand demoConf.schedulerCmd ∧ PlainCommand demoConf.workerCmd ∧ PlainWord demoSys.defaultHost ∧
    PlainWord demoSys.heartbeatPeriod ∧ PlainWord demoConf.adaptivePeriod ∧ PlainWord demoConf.idleTimeout ∧
    PlainWord (demoClu "c1".toList).schedulerAddress ∧ PlainWord "w-1".toList :=
  ⟨⟨by decide, _, _, rfl, by decide, by decide⟩, ⟨by decide, _, _, rfl, by decide, by decide⟩, by decide, by decide,
    by decide, by decide, by decide, by decide⟩

/-- Submissions succeed. -/
example : (slurmSubmit demoHome demoSys (demoClu "c1".toList) (some "w-1".toList)).isSome = true ∧
    (pbsSubmit demoHome demoSys (demoClu "c1".toList) none).isSome = true := by decide +kernel

/-- What the job of a worker gets on Slurm. -/
example : (slurmSubmit demoHome demoSys (demoClu "c1".toList) (some "w-1".toList)).map (fun s => s.cmd.take 8) =
    some (["/usr/bin/sbatch", "--parsable", "--job-name=dask-gateway", "--partition=long",
      "--chdir=/home/alice/.dask-gateway/c1", "--output=/home/alice/.dask-gateway/c1/dask-worker-w-1.log",
      "--cpus-per-task=4", "--mem=4096M"].map String.toList) := by decide +kernel

/-- A user who is not known gets no job. -/
example : slurmSubmit (fun _ => none) demoSys (demoClu "c1".toList) none = none := by decide +kernel

/-- C120: two clusters of a user. -/
example : stagingDir demoHome (demoClu "c1".toList) = some "/home/alice/.dask-gateway/c1".toList ∧
    stagingDir demoHome (demoClu "c2".toList) = some "/home/alice/.dask-gateway/c2".toList ∧ Part "c1".toList ∧ Part "c2".toList := by
  refine ⟨by decide +kernel, by decide +kernel, ⟨by decide, by decide⟩, ⟨by decide, by decide⟩⟩

/-- C121: a start and a stop without trouble, with a restart of the gateway between. -/
example : let good : StartEv := { user := true, mkdir := true, files := 2, accept := some "7".toList, answer := .received }
    (∀ o ∈ [LifeOp.start good, .stop { removable := true, cancels := true } true, .stop { removable := true, cancels := true } false],
      CleanOp o) ∧
    (Life.run "C".toList "K".toList [.start good]).jobs = ["7".toList] ∧
    (Life.run "C".toList "K".toList [.start good, .stop { removable := true, cancels := true } false]).phase = .ended := by
  refine ⟨?_, rfl, rfl⟩
  intro o ho
  simp only [List.mem_cons, List.not_mem_nil, or_false] at ho
  rcases ho with rfl | rfl | rfl
  · exact Or.inr ⟨by decide, by decide, rfl⟩
  · exact ⟨rfl, rfl⟩
  · exact ⟨rfl, rfl⟩

/-- C122: a job that runs, one that ended and one that is no longer listed. -/
example : let ks : List Known := [⟨"a".toList, "17".toList, some "R".toList⟩, ⟨"b".toList, "18".toList, some "F".toList⟩,
      ⟨"c".toList, "19".toList, none⟩]
    let rows := [("17".toList, "R".toList), ("18".toList, "F".toList)]
    Lists rows ks ∧ (ks.map Known.name).Nodup ∧ (∀ k ∈ ks, Solid k.id) ∧
      slurmCheck (fun _ => some (squeueText rows)) demoSys (ks.map (Known.job (fun id => id ++ ['\n']))) =
        some [true, false, false] := by
  refine ⟨⟨by decide, ?_⟩, by decide, ?_, by decide +kernel⟩
  · intro k hk s
    simp only [List.mem_cons, List.not_mem_nil, or_false] at hk
    rcases hk with rfl | rfl | rfl
    · simp only [Option.some.injEq, List.mem_cons, Prod.mk.injEq, List.not_mem_nil, or_false]
      constructor
      · rintro rfl; simp
      · rintro (⟨_, rfl⟩ | ⟨h, _⟩)
        · rfl
        · exact absurd h (by decide)
    · simp only [Option.some.injEq, List.mem_cons, Prod.mk.injEq, List.not_mem_nil, or_false]
      constructor
      · rintro rfl; simp
      · rintro (⟨h, _⟩ | ⟨_, rfl⟩)
        · exact absurd h (by decide)
        · rfl
    · simp only [reduceCtorEq, List.mem_cons, Prod.mk.injEq, List.not_mem_nil, or_false, false_iff]
      rintro (⟨h, _⟩ | ⟨h, _⟩) <;> exact absurd h (by decide)
  · intro k hk
    simp only [List.mem_cons, List.not_mem_nil, or_false] at hk
    rcases hk with rfl | rfl | rfl <;> exact ⟨by decide, by decide⟩

/-- C122 on PBS. -/
example : pbsCheck (fun _ => some ("Job id  Name  User  Time Use  S  Queue\n------  ----  ----  --------  -  -----\n".toList ++
      "17.head dask-gateway alice 00:00:01 R workq\n18.head dask-gateway alice 00:00:01 F workq\n".toList)) demoSys
    [⟨"a".toList, some "17.head".toList⟩, ⟨"b".toList, some "18.head".toList⟩, ⟨"c".toList, none⟩] = some [true, false, false] := by
  decide +kernel

/-- C123: what the job of a scheduler gets on PBS. -/
example : (pbsSubmit demoHome demoSys (demoClu "c1".toList) none).map (fun s =>
      (valuesOf "-q".toList s.cmd, valuesOf "-A".toList s.cmd, valuesOf "-l".toList s.cmd, valuesOf "-W".toList s.cmd)) =
    some (["workq".toList], [], ["select=1:ncpus=1:mem=2048MB".toList],
      ["sandbox=PRIVATE".toList, "stagein=.@edge:/home/alice/.dask-gateway/c1/*".toList]) := by decide +kernel

/-- C124: an account. -/
example : sudoRun [("alice".toList, 1000), ("root".toList, 0)] (asUser demoSys "alice".toList) = some (1000, [demoSys.launcher]) := by
  decide +kernel

end Verif.Batch
