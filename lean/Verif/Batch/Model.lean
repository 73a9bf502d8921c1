import Verif.Json
import Verif.Dict
import Verif.Env.Model
import Verif.Backends.Model
import Verif.Batch.Shell
/-
Model of how jobs are given to batch systems:
`dask-gateway-server/dask_gateway_server/backends/jobqueue/base.py` (77-213), `slurm.py` (56-120), `pbs.py`
(112-187) and `launcher.py`, of the commands of schedulers and workers (`backends/db_base.py` 1428-1469), and of the
scripts on YARN (`backends/yarn.py` 132-153, 241-252).

Numbers with a fraction in commands are given as the text Python prints for them.
-/
namespace Verif.Batch
open Verif.Backends (pathJoin slurmFormat pbsFormat)

/-! ### Text -/

/-- `str.isspace` of one character (slurm.py:115, 120, pbs.py:174, 182). -/
def isSpace (c : Char) : Bool :=
  let n := c.toNat
  (9 ≤ n && n ≤ 13) || (28 ≤ n && n ≤ 32) || n == 133 || n == 160 || n == 5760 || (8192 ≤ n && n ≤ 8202) ||
    n == 8232 || n == 8233 || n == 8239 || n == 8287 || n == 12288

/-- The ends of lines for `str.splitlines` (slurm.py:114, pbs.py:177). -/
def isBreak (c : Char) : Bool :=
  let n := c.toNat
  (10 ≤ n && n ≤ 13) || (28 ≤ n && n ≤ 30) || n == 133 || n == 8232 || n == 8233

/-- `str.splitlines` with the line so far (slurm.py:114, pbs.py:177). -/
def splitlinesGo (cur : Str) : Str → List Str
  | [] => if cur = [] then [] else [cur]
  | [c] => if isBreak c then [cur] else [cur ++ [c]]
  | c :: d :: s =>
    if c = '\r' ∧ d = '\n' then cur :: splitlinesGo [] s
    else if isBreak c then cur :: splitlinesGo [] (d :: s)
    else splitlinesGo (cur ++ [c]) (d :: s)

/-- `str.splitlines` (slurm.py:114, pbs.py:177) -/
def splitlines (s : Str) : List Str := splitlinesGo [] s

/-- `str.split()` with the word so far (slurm.py:115, pbs.py:182). -/
def splitGo (cur : Str) : Str → List Str
  | [] => if cur = [] then [] else [cur]
  | c :: s =>
    if isSpace c then (if cur = [] then splitGo [] s else cur :: splitGo [] s)
    else splitGo (cur ++ [c]) s

/-- `str.split()` (slurm.py:115, pbs.py:182) -/
def splitWords (s : Str) : List Str := splitGo [] s

/-- `str.strip()` (slurm.py:120, pbs.py:174) -/
def strip (s : Str) : Str := ((s.dropWhile isSpace).reverse.dropWhile isSpace).reverse

/-- `" ".join` (slurm.py:74, 86, pbs.py:141, 154, yarn.py:144-145) -/
def joinBlank : List Str → Str
  | [] => []
  | [a] => a
  | a :: b :: l => a ++ ' ' :: joinBlank (b :: l)

/-- `"\n".join` (slurm.py:70, 82, pbs.py:138, 151) -/
def joinLine : List Str → Str
  | [] => []
  | [a] => a
  | a :: b :: l => a ++ '\n' :: joinLine (b :: l)

/-- `str.format` with names only (base.py:78-80, pbs.py:25): `none` if it raises. Conversions, format
specifications, indices and positions are not covered (`none`). `name`: the name of the field under way. -/
def formatGo (vals : List (Str × Str)) : Option Str → Str → Option Str
  | none, [] => some []
  | some _, [] => none
  | none, '{' :: '{' :: s => (formatGo vals none s).map ('{' :: ·)
  | none, '}' :: '}' :: s => (formatGo vals none s).map ('}' :: ·)
  | none, c :: s =>
    if c = '{' then formatGo vals (some []) s
    else if c = '}' then none
    else (formatGo vals none s).map (c :: ·)
  | some name, c :: s =>
    if c = '}' then
      match lookup vals name with
      | none => none
      | some v => (formatGo vals none s).map (v ++ ·)
    else formatGo vals (some (name ++ [c])) s

/-- `template.format(**vals)` (base.py:78-80, pbs.py:25) -/
def format (template : Str) (vals : List (Str × Str)) : Option Str := formatGo vals none template

/-! ### What is configured -/

/-- The configuration of a cluster, as far as jobs depend on it (base.py:14-38, slurm.py:24-31, pbs.py:28-75,
backends/base.py of ClusterConfig). -/
structure Conf where
  schedulerCmd : List Str
  workerCmd : List Str
  schedulerSetup : Str
  workerSetup : Str
  schedulerCores : Nat
  workerCores : Nat
  schedulerMemory : Nat
  workerMemory : Nat
  workerThreads : Nat
  adaptivePeriod : Str
  idleTimeout : Str
  stagingDirectory : Str
  partition : Str
  account : Str
  qos : Str
  queue : Str
  project : Str
  schedulerResources : Str
  workerResources : Str
  useStagein : Bool

/-- The configuration of the backend (base.py:44-60, pbs.py:88-98, db_base.py:1428, 1445). -/
structure Sys where
  submit : Str
  cancel : Str
  status : Str
  launcher : Str
  hostname : Str
  heartbeatPeriod : Str
  defaultHost : Str

/-- A cluster (base.py:77-81, db_base.py:1390-1402). -/
structure Clu where
  name : Str
  user : Str
  given : Env.Given
  conf : Conf
  /-- The address its scheduler reported (db_base.py:1458). -/
  schedulerAddress : Str
  tlsCert : Str
  tlsKey : Str

/-! ### Commands -/

/-- db_base.py:1430-1450 `get_scheduler_command` -/
def schedulerCommand (b : Sys) (c : Conf) : List Str :=
  c.schedulerCmd ++
    ["--protocol".toList, "tls".toList, "--port".toList, "0".toList, "--host".toList, b.defaultHost,
     "--dashboard-address".toList, b.defaultHost ++ ":0".toList,
     "--preload".toList, "dask_gateway.scheduler_preload".toList,
     "--dg-api-address".toList, b.defaultHost ++ ":0".toList,
     "--dg-heartbeat-period".toList, b.heartbeatPeriod,
     "--dg-adaptive-period".toList, c.adaptivePeriod,
     "--dg-idle-timeout".toList, c.idleTimeout]

/-- db_base.py:1455-1469 `get_worker_command`, from the result of `worker_nthreads_memory_limit_args`. -/
def workerCommand (b : Sys) (c : Conf) (name address nthreads memoryLimit : Str) : List Str :=
  c.workerCmd ++
    [address, "--dashboard-address".toList, b.defaultHost ++ ":0".toList, "--name".toList, name,
     "--nthreads".toList, nthreads, "--memory-limit".toList, memoryLimit]

/-- db_base.py:1452-1453 `worker_nthreads_memory_limit_args` -/
def workerArgs (c : Conf) : Str × Str := (Nat.toDigits 10 c.workerThreads, Nat.toDigits 10 c.workerMemory)

/-- db_base.py:1455-1469 with the defaults. -/
def workerCommandOf (b : Sys) (c : Clu) (name : Str) : List Str :=
  workerCommand b c.conf name c.schedulerAddress (workerArgs c.conf).1 (workerArgs c.conf).2

/-! ### The staging directory -/

/-- base.py:77-81 `get_staging_directory`; `home` is the password database: it has no entry for an unknown user, and
the lookup raises. -/
def stagingDir (home : Str → Option Str) (c : Clu) : Option Str :=
  match home c.user with
  | none => none
  | some h =>
    (format c.conf.stagingDirectory [("home".toList, h), ("username".toList, c.user)]).map (fun d => pathJoin d c.name)

/-- base.py:83-88 `get_tls_paths` -/
def tlsPaths (home : Str → Option Str) (c : Clu) : Option (Str × Str) :=
  (stagingDir home c).map (fun d => (pathJoin d "dask.crt".toList, pathJoin d "dask.pem".toList))

/-- pbs.py:112-115 `get_tls_paths` -/
def pbsTlsPaths (home : Str → Option Str) (c : Clu) : Option (Str × Str) :=
  if c.conf.useStagein then some ("dask.crt".toList, "dask.pem".toList) else tlsPaths home c

/-! ### Submission -/

/-- A submission: the command, its environment and its standard input (slurm.py:103, pbs.py:163). -/
structure Submission where
  cmd : List Str
  env : List (Str × Str)
  stdin : Option Str
deriving DecidableEq

/-- A setting that is passed on unless it is empty (slurm.py:59-64). -/
def optArg (flag value : Str) : List Str := if value = [] then [] else [flag ++ value]

/-- slurm.py:56-103 `get_submit_cmd_env_stdin`; `worker`: the name of the worker, if it is for one. -/
def slurmSubmit (home : Str → Option Str) (b : Sys) (c : Clu) (worker : Option Str) : Option Submission :=
  match stagingDir home c, tlsPaths home c with
  | some dir, some (cert, key) =>
    let base := Env.getEnv c.given
    let cpus := match worker with | some _ => c.conf.workerCores | none => c.conf.schedulerCores
    let mem := slurmFormat (match worker with | some _ => c.conf.workerMemory | none => c.conf.schedulerMemory)
    let log := match worker with
      | some w => "dask-worker-".toList ++ w ++ ".log".toList
      | none => "dask-scheduler-".toList ++ c.name ++ ".log".toList
    let script := match worker with
      | some w => joinLine ["#!/bin/sh".toList, c.conf.workerSetup, joinBlank (workerCommandOf b c w)]
      | none => joinLine ["#!/bin/sh".toList, c.conf.schedulerSetup, joinBlank (schedulerCommand b c.conf)]
    let env := match worker with | some _ => Env.workerEnv base cert key | none => Env.schedulerEnv base cert key
    some
      { cmd := [b.submit, "--parsable".toList, "--job-name=dask-gateway".toList] ++
          optArg "--partition=".toList c.conf.partition ++ optArg "--account=".toList c.conf.account ++
          optArg "--qos=".toList c.conf.qos ++
          ["--chdir=".toList ++ dir, "--output=".toList ++ pathJoin dir log,
           "--cpus-per-task=".toList ++ Nat.toDigits 10 cpus, "--mem=".toList ++ mem,
           "--export=".toList ++ Env.exported env],
        env := env, stdin := some script }
  | _, _ => none

/-- A setting of two words that is passed on unless it is empty (pbs.py:120-125). -/
def optArgs (flag value : Str) : List Str := if value = [] then [] else [flag, value]

/-- pbs.py:24-25 `format_resource_list` -/
def resourceList (template : Str) (cores memory : Nat) : Option Str :=
  format template [("cores".toList, Nat.toDigits 10 cores), ("memory".toList, pbsFormat memory)]

/-- pbs.py:117-163 `get_submit_cmd_env_stdin` -/
def pbsSubmit (home : Str → Option Str) (b : Sys) (c : Clu) (worker : Option Str) : Option Submission :=
  let stage := if c.conf.useStagein then
      (stagingDir home c).map (fun d => ["-Wstagein=.@".toList ++ b.hostname ++ ":".toList ++ d ++ "/*".toList])
    else some []
  let resources := match worker with
    | some _ => resourceList c.conf.workerResources c.conf.workerCores c.conf.workerMemory
    | none => resourceList c.conf.schedulerResources c.conf.schedulerCores c.conf.schedulerMemory
  match stage, resources, pbsTlsPaths home c with
  | some stage, some resources, some (cert, key) =>
    let base := Env.getEnv c.given
    let script := match worker with
      | some w => joinLine [c.conf.workerSetup, joinBlank (workerCommandOf b c w)]
      | none => joinLine [c.conf.schedulerSetup, joinBlank (schedulerCommand b c.conf)]
    let env := match worker with | some _ => Env.workerEnv base cert key | none => Env.schedulerEnv base cert key
    some
      { cmd := [b.submit, "-N".toList, "dask-gateway".toList] ++ optArgs "-q".toList c.conf.queue ++
          optArgs "-A".toList c.conf.account ++ optArgs "-P".toList c.conf.project ++
          ["-j".toList, "eo".toList, "-R".toList, "eo".toList, "-Wsandbox=PRIVATE".toList] ++ stage ++
          ["-v".toList, Env.exported env, "-l".toList, resources, "--".toList, "/bin/sh".toList, "-c".toList, script],
        env := env, stdin := none }
  | _, _, _ => none

/-! ### Scripts on YARN -/

/-- yarn.py:132-133 `worker_nthreads_memory_limit_args` -/
def yarnArgs : Str × Str := ("$SKEIN_RESOURCE_VCORES".toList, "${SKEIN_RESOURCE_MEMORY}MiB".toList)

/-- yarn.py:145-153 the script of workers -/
def yarnWorkerScript (b : Sys) (c : Conf) : Str :=
  c.workerSetup ++ '\n' :: joinBlank
    (workerCommand b c "$DASK_GATEWAY_WORKER_NAME".toList "$DASK_GATEWAY_SCHEDULER_ADDRESS".toList yarnArgs.1 yarnArgs.2)

/-- yarn.py:144, 152 the script of the scheduler -/
def yarnSchedulerScript (b : Sys) (c : Conf) : Str := c.schedulerSetup ++ '\n' :: joinBlank (schedulerCommand b c)

/-- What a container's shell knows of: the variables the gateway adds for it (yarn.py:245-250), those of skein, the
rest of its environment. -/
def yarnEnv (c : Clu) (name : Str) (vcores memory : Nat) (rest : Str → Option Str) : Str → Option Str := fun k =>
  if k = "DASK_GATEWAY_WORKER_NAME".toList then some name
  else if k = "DASK_GATEWAY_SCHEDULER_ADDRESS".toList then some c.schedulerAddress
  else if k = "SKEIN_RESOURCE_VCORES".toList then some (Nat.toDigits 10 vcores)
  else if k = "SKEIN_RESOURCE_MEMORY".toList then some (Nat.toDigits 10 memory)
  else rest k

/-! ### Answers of the batch system -/

/-- slurm.py:105-106, pbs.py:165-166 `get_stop_cmd_env` -/
def stopCmd (b : Sys) (jobId : Str) : List Str := [b.cancel, jobId]

/-- slurm.py:108-110 `get_status_cmd_env` -/
def slurmStatusCmd (b : Sys) (ids : List Str) : List Str :=
  [b.status, "-h".toList, "--job=".toList ++ Env.joinComma ids, "-o".toList, "%i %t".toList]

/-- pbs.py:168-171 `get_status_cmd_env` -/
def pbsStatusCmd (b : Sys) (ids : List Str) : List Str := [b.status, "-x".toList] ++ ids

/-- slurm.py:119-120, pbs.py:173-174 `parse_job_id` -/
def parseJobId (stdout : Str) : Str := strip stdout

/-- All or nothing (an exception ends the loop of slurm.py:114, pbs.py:181). -/
def allSome {α : Type} : List (Option α) → Option (List α)
  | [] => some []
  | none :: _ => none
  | some a :: l => (allSome l).map (a :: ·)

/-- slurm.py:115: a line has to have two words. -/
def slurmRow (line : Str) : Option (Str × Str) :=
  match splitWords line with
  | [i, s] => some (i, s)
  | _ => none

/-- slurm.py:114-115 the lines of the output; `none` if it raises -/
def slurmRows (stdout : Str) : Option (List (Str × Str)) := allSome ((splitlines stdout).map slurmRow)

/-- slurm.py:117 the states that count as alive -/
def slurmActive : List Str := ["R", "CG", "PD", "CF"].map String.toList

/-- slurm.py:112-117 `parse_job_states` -/
def slurmStates (stdout : Str) : Option (List (Str × Bool)) :=
  (slurmRows stdout).map (Backends.parseStates slurmActive)

/-- pbs.py:182-184: the first and the fifth word of a line. -/
def pbsRow (line : Str) : Option (Str × Str) :=
  match (splitWords line)[0]?, (splitWords line)[4]? with
  | some i, some s => some (i, s)
  | _, _ => none

/-- pbs.py:177-184 the lines of the output below the titles; `none` if it raises -/
def pbsRows (stdout : Str) : Option (List (Str × Str)) := allSome (((splitlines stdout).drop 2).map pbsRow)

/-- pbs.py:185 the states that count as alive -/
def pbsActive : List Str := ["R", "Q", "H"].map String.toList

/-- pbs.py:176-187 `parse_job_states` -/
def pbsStates (stdout : Str) : Option (List (Str × Bool)) := (pbsRows stdout).map (Backends.parseStates pbsActive)

/-- base.py:200-207 `_do_check` on Slurm; `run` is the output of the status command, `none` if it fails (base.py:147-168). -/
def slurmCheck (run : List Str → Option Str) (b : Sys) (objs : List Backends.Job) : Option (List Bool) :=
  Backends.jobCheck (fun ids => (run (slurmStatusCmd b ids)).bind slurmRows) slurmActive objs

/-- base.py:200-207 `_do_check` on PBS -/
def pbsCheck (run : List Str → Option Str) (b : Sys) (objs : List Backends.Job) : Option (List Bool) :=
  Backends.jobCheck (fun ids => (run (pbsStatusCmd b ids)).bind pbsRows) pbsActive objs

/-- base.py:91 `do_as_user`: the command that runs the launcher. -/
def asUser (b : Sys) (user : Str) : List Str := ["sudo".toList, "-nHu".toList, user, b.launcher]

end Verif.Batch
