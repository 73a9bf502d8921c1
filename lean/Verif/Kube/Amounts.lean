import Verif.Kube.Objects
import Verif.Boot.Model
import Verif.Options.Model
/-
Model of the amounts of memory and the numbers of cores that the pods of a cluster ask for, and of the command of a
worker: dask-gateway-server/dask_gateway_server/backends/kubernetes/backend.py:68-153,
backends/base.py:282-301, 470-475 and backends/kubernetes/controller.py:1052-1064, 1094-1149.

Numbers of cores are exact rationals (every float is one).
-/
namespace Verif.Kube

/-- The settings for one kind of pod: backend.py:70-77, 79-92, 94-111 for workers, 112-119, 121-134, 136-153 for
schedulers; `none`: a limit that nothing sets. -/
structure Amounts where
  cores : Rat := 1
  coresLimit : Option Rat := none
  memory : Int := 2147483648
  memoryLimit : Option Int := none

/-- backend.py:90-92, 132-134: the limit of cores defaults to the cores. It is read after all settings are made
(base.py:470-475). -/
def Amounts.limitCores (a : Amounts) : Rat := a.coresLimit.getD a.cores

/-- backend.py:109-111, 151-153: the limit of memory defaults to the memory. -/
def Amounts.limitMemory (a : Amounts) : Int := a.memoryLimit.getD a.memory

/-- base.py:99: what a user's options choose replaces what the configuration says, setting by setting. -/
def Amounts.choose (a : Amounts) (cores : Option Rat) (memory : Option Int) : Amounts :=
  { a with cores := cores.getD a.cores, memory := memory.getD a.memory }

/-- base.py:293-301: the threads of a worker, where the setting is missing (`none`) or a positive number. `None`
as a setting is not covered. -/
def threads (cores : Rat) : Option Nat → Int
  | none => max cores.floor 1
  | some n => n

/-- `round(1000 * q)`, ties to even, for `0 ≤ q`: the digits of `f"{q:.3f}"` (controller.py:1147-1148) -/
def thousandths (q : Rat) : Nat := Options.roundHalfEven (1000 * q.num.toNat) q.den

/-- Three digits (controller.py:1147-1148). -/
def pad3 (n : Nat) : Str := [Nat.digitChar (n / 100), Nat.digitChar (n / 10 % 10), Nat.digitChar (n % 10)]

/-- `f"{q:.3f}"` for `0 ≤ q` (controller.py:1147-1148) -/
def cpuText (q : Rat) : Str :=
  Nat.toDigits 10 (thousandths q / 1000) ++ '.' :: pad3 (thousandths q % 1000)

/-- controller.py:1099-1102, 1117-1120, 1146-1149: the amounts in the configuration of a pod -/
def withAmounts (a : Amounts) (p : PodConfig) : PodConfig :=
  { p with
    cpuRequest := cpuText a.cores
    cpuLimit := cpuText a.limitCores
    memRequest := Boot.showInt a.memory
    memLimit := Boot.showInt a.limitMemory }

/-- controller.py:1052-1064 `get_worker_command` -/
def workerCommand (cmd : List Str) (ns name : Str) (a : Amounts) (nthreads : Option Nat) : List Str :=
  cmd ++
    ["tls://".toList ++ serviceName name ++ '.' :: ns ++ ":8786".toList,
     "--dashboard-address".toList, ":8787".toList,
     "--name".toList, "$(DASK_GATEWAY_WORKER_NAME)".toList,
     "--nthreads".toList, Boot.showInt (threads a.cores nthreads),
     "--memory-limit".toList, Boot.showInt a.limitMemory]

/-- The pod of a worker (controller.py:1094-1114, 1146-1149). -/
def workerPodOf (c : Ctl) (ns name : Str) (cmd : List Str) (a : Amounts) (nthreads : Option Nat) (p : PodConfig) : Obj :=
  makePod c ns name { withAmounts a p with args := workerCommand cmd ns name a nthreads } true

/-- The pod of a scheduler (controller.py:1115-1134, 1146-1149). -/
def schedulerPodOf (c : Ctl) (ns name : Str) (a : Amounts) (p : PodConfig) : Obj :=
  makePod c ns name (withAmounts a p) false

end Verif.Kube
