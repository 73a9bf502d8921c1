import Verif.Batch.Model
import Verif.Kube.Amounts
import Verif.Idle.Model
/-
From the setting of a command (`scheduler_cmd`, `worker_cmd`: dask-gateway-server/dask_gateway_server/backends/base.py:
243-249, of the type `Command`, traitlets.py:90-104) to what is run.

On batch systems the words are joined by blanks and the shell reads the line (`Verif.Batch`). The local backend gives the
words to the system (backends/local.py:219-233, `create_subprocess_exec`), Kubernetes gets them as `args` of the container
(backends/kubernetes/controller.py:1144) and replaces references to variables of the container in them, as documented for
`args`: `$(NAME)` is the value of a variable of the container and stays as it is if there is none of this name, `$$` is a
dollar sign.
-/
namespace Verif.Command

/-- What the configuration has for a command (traitlets.py:90-104): a text or a list of texts. Other values are refused
by `List` of traitlets. -/
inductive Setting where
  | text (s : Str)
  | words (l : List Str)
deriving DecidableEq

/-- traitlets.py:95-104 `Command.validate`: a text becomes a list with one word; `List` refuses lists that are shorter
than `minlen`, which is 1 (96). -/
def validate : Setting → Option (List Str)
  | .text s => some [s]
  | .words l => if l.length < 1 then none else some l

/-! ### Kubernetes -/

/-- The variable of a container: the last entry of its name counts (controller.py:1104-1109, 1145). -/
def varOf (env : List (Str × Str)) (name : Str) : Option Str := lookup env.reverse name

/-- References in an argument (controller.py:1059, 1144); with fuel. -/
def expandArg (env : List (Str × Str)) : Nat → Str → Str
  | 0, s => s
  | _ + 1, [] => []
  | _ + 1, ['$'] => ['$']
  | n + 1, '$' :: '$' :: s => '$' :: expandArg env n s
  | n + 1, '$' :: '(' :: s =>
    if ')' ∈ s then
      let name := s.takeWhile (· ≠ ')')
      (match varOf env name with
        | some v => v
        | none => '$' :: '(' :: name ++ [')']) ++ expandArg env n (s.drop (name.length + 1))
    else '$' :: '(' :: expandArg env n s
  | n + 1, '$' :: c :: s => '$' :: c :: expandArg env n s
  | n + 1, c :: s => c :: expandArg env n s

/-- What a container runs (controller.py:1144). -/
def containerRuns (env : List (Str × Str)) (args : List Str) : List Str := args.map (fun a => expandArg env (a.length + 1) a)

/-- controller.py:1103-1109, 1144-1145: the worker in the pod of this name; the entry for the worker's name comes last. -/
def kubeWorkerRuns (c : Kube.Ctl) (ns name pod : Str) (environment : List (Str × Str)) (cmd : List Str) (a : Kube.Amounts)
    (nthreads : Option Nat) : List Str :=
  containerRuns (Kube.envDict c ns name environment ++ [("DASK_GATEWAY_WORKER_NAME".toList, pod)])
    (Kube.workerCommand cmd ns name a nthreads)

/-- controller.py:1121, 1144-1145: the scheduler. -/
def kubeSchedulerRuns (c : Kube.Ctl) (ns name : Str) (environment : List (Str × Str)) (cmd : List Str)
    (adaptivePeriod idleTimeout : Str) : List Str :=
  containerRuns (Kube.envDict c ns name environment) (Idle.kubeSchedulerCommand cmd adaptivePeriod idleTimeout)

/-! ### Local processes -/

/-- local.py:227-228, 261-266: the words given to the system. -/
def localSchedulerRuns (b : Batch.Sys) (c : Batch.Conf) : List Str := Batch.schedulerCommand b c

/-- local.py:227-228, 285-290 -/
def localWorkerRuns (b : Batch.Sys) (c : Batch.Clu) (name : Str) : List Str := Batch.workerCommandOf b c name

end Verif.Command
