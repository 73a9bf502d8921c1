import Verif.Json
/-
Model of the resource settings of a cluster: `ClusterConfig` in
dask-gateway-server/dask_gateway_server/backends/base.py:240-475 and how
`process_cluster_options` (base.py:94-104) builds one from the gateway's configuration file and the
overrides that the user's options give.

Core counts are exact rationals (floats in the code). The memory settings are the integers that
`MemoryLimit.validate` (traitlets.py:42-60) returns.

`ClusterConfig(parent=self, **overrides)` is a traitlets `Configurable`. Its constructor (outside
the repository) works in three phases: the overrides are assigned, then the values of the
configuration file, both with the cross validators held back until all are assigned and then run for
the settings that changed; then the overrides whose settings the file changed are assigned again,
one by one, in no particular order, with the cross validators run at once.
-/
namespace Verif.Config

/-- The exceptions raised: a validator's `ValueError` (base.py:397, 404), a type's `TraitError`, and
`ZeroDivisionError` (base.py:413, 418). -/
inductive Err where
  | value
  | trait
  | zeroDivision
  deriving DecidableEq

/-- base.py:258-391 the resource settings, with their defaults. `maxWorkers` is `none` if it was
never assigned (its default is computed when it is read), and `some none` if it is `None`. -/
structure Res where
  workerMemory : Int := 2147483648
  schedulerMemory : Int := 2147483648
  workerCores : Rat := 1
  schedulerCores : Rat := 1
  maxMemory : Option Int := none
  maxCores : Option Rat := none
  maxWorkers : Option (Option Int) := none
  deriving DecidableEq

/-- The names of the settings (base.py:258, 272, 303, 317, 350, 368, 380). -/
inductive Name where
  | workerMemory | schedulerMemory | workerCores | schedulerCores | maxMemory | maxCores | maxWorkers
  deriving DecidableEq

/-- A value for a setting: an entry of the configuration file or of the overrides (base.py:258-391). -/
inductive Setting where
  | workerMemory (n : Int)
  | schedulerMemory (n : Int)
  | workerCores (q : Rat)
  | schedulerCores (q : Rat)
  | maxMemory (n : Option Int)
  | maxCores (q : Option Rat)
  | maxWorkers (n : Option Int)
  deriving DecidableEq

/-- The name of the setting a value is for (base.py:258-391). -/
def Setting.name : Setting → Name
  | .workerMemory _ => .workerMemory
  | .schedulerMemory _ => .schedulerMemory
  | .workerCores _ => .workerCores
  | .schedulerCores _ => .schedulerCores
  | .maxMemory _ => .maxMemory
  | .maxCores _ => .maxCores
  | .maxWorkers _ => .maxWorkers

/-- The minima of the types (base.py:274, 319, 375, 389; `minCores` is 1 there and 0 in
backends/kubernetes/backend.py:73, 115). `MemoryLimit` does not check a minimum
(traitlets.py:42-60). -/
def Setting.typeOk (minCores : Rat) : Setting → Bool
  | .workerCores q | .schedulerCores q => decide (minCores ≤ q)
  | .maxCores (some q) => decide (0 ≤ q)
  | .maxWorkers (some n) => decide (0 ≤ n)
  | _ => true

/-- The assignment itself (base.py:99). -/
def Res.store (r : Res) : Setting → Res
  | .workerMemory n => { r with workerMemory := n }
  | .schedulerMemory n => { r with schedulerMemory := n }
  | .workerCores q => { r with workerCores := q }
  | .schedulerCores q => { r with schedulerCores := q }
  | .maxMemory n => { r with maxMemory := n }
  | .maxCores q => { r with maxCores := q }
  | .maxWorkers n => { r with maxWorkers := some n }

/-- Whether an assignment changes the setting; the value of `cluster_max_workers` before the first
assignment counts as 0 (the static default of `Integer`). The first assignment of a memory setting
always counts as a change in the code; a cross validation more or less of an unchanged value makes
no difference (base.py:99, 380-391). -/
def Res.changes (r : Res) : Setting → Bool
  | .maxWorkers n => decide (r.maxWorkers.getD (some 0) ≠ n)
  | s => decide (r.store s ≠ r)

/-- base.py:411-415: the limit from memory; `//` is floor division. -/
def memoryLimit (r : Res) : Except Err (Option Int) :=
  match r.maxMemory with
  | none => .ok none
  | some m =>
    if r.workerMemory = 0 then .error .zeroDivision
    else .ok (some ((m - r.schedulerMemory).fdiv r.workerMemory))

/-- base.py:416-420: the limit from cores. -/
def coresLimit (r : Res) : Except Err (Option Int) :=
  match r.maxCores with
  | none => .ok none
  | some m =>
    if r.workerCores = 0 then .error .zeroDivision
    else .ok (some ((m - r.schedulerCores) / r.workerCores).floor)

/-- `min(a, b)` where `none` is infinity (base.py:410-420). -/
def minInf : Option Int → Option Int → Option Int
  | none, b => b
  | a, none => a
  | some a, some b => some (if a ≤ b then a else b)

/-- base.py:409-424 `_worker_limit_from_resources`. -/
def workerLimit (r : Res) : Except Err (Option Int) :=
  match memoryLimit r with
  | .error e => .error e
  | .ok a =>
    match coresLimit r with
    | .error e => .error e
    | .ok b =>
      match minInf a b with
      | none => .ok none
      | some n => .ok (some (if 0 ≤ n then n else 0))

/-- base.py:393-400 `_check_scheduler_memory`. -/
def checkMemory (schedulerMemory : Int) (maxMemory : Option Int) : Except Err Unit :=
  match maxMemory with
  | none => .ok ()
  | some m => if schedulerMemory > m then .error .value else .ok ()

/-- base.py:402-407 `_check_scheduler_cores`. -/
def checkCores (schedulerCores : Rat) (maxCores : Option Rat) : Except Err Unit :=
  match maxCores with
  | none => .ok ()
  | some m => if m < schedulerCores then .error .value else .ok ()

/-- base.py:446-453 `_validate_cluster_max_workers`. -/
def validMaxWorkers (r : Res) (value : Option Int) : Except Err (Option Int) :=
  match workerLimit r with
  | .error e => .error e
  | .ok none => .ok value
  | .ok (some lim) =>
    match value with
    | none => .ok (some lim)
    | some n => .ok (some (if n ≤ lim then n else lim))

/-- base.py:426-453 the cross validators: the value to store. -/
def crossValidate (r : Res) : Setting → Except Err Setting
  | .schedulerMemory n =>
    match checkMemory n r.maxMemory with
    | .error e => .error e
    | .ok () => .ok (.schedulerMemory n)
  | .schedulerCores q =>
    match checkCores q r.maxCores with
    | .error e => .error e
    | .ok () => .ok (.schedulerCores q)
  | .maxMemory m =>
    match checkMemory r.schedulerMemory m with
    | .error e => .error e
    | .ok () => .ok (.maxMemory m)
  | .maxCores m =>
    match checkCores r.schedulerCores m with
    | .error e => .error e
    | .ok () => .ok (.maxCores m)
  | .maxWorkers n =>
    match validMaxWorkers r n with
    | .error e => .error e
    | .ok n' => .ok (.maxWorkers n')
  | s => .ok s

/-- The current value of a setting (`getattr`); only used for settings that were assigned (base.py:470-475). -/
def Res.current (r : Res) : Name → Setting
  | .workerMemory => .workerMemory r.workerMemory
  | .schedulerMemory => .schedulerMemory r.schedulerMemory
  | .workerCores => .workerCores r.workerCores
  | .schedulerCores => .schedulerCores r.schedulerCores
  | .maxMemory => .maxMemory r.maxMemory
  | .maxCores => .maxCores r.maxCores
  | .maxWorkers => .maxWorkers (r.maxWorkers.getD (some 0))

/-- Assignments with the cross validators held back: the settings that changed, in order (base.py:99). -/
def holdStore (minCores : Rat) : Res → List Name → List Setting → Except Err (Res × List Name)
  | r, changed, [] => .ok (r, changed)
  | r, changed, s :: l =>
    if s.typeOk minCores then
      holdStore minCores (r.store s)
        (if r.changes s ∧ s.name ∉ changed then changed ++ [s.name] else changed) l
    else .error .trait

/-- The end of a phase: the cross validators of the settings that changed (base.py:99, 426-453). -/
def release : Res → List Name → Except Err Res
  | r, [] => .ok r
  | r, n :: l =>
    match crossValidate r (r.current n) with
    | .error e => .error e
    | .ok s => release (r.store s) l

/-- One phase: the settings, and the names of the ones that changed (base.py:99). -/
def hold (minCores : Rat) (r : Res) (l : List Setting) : Except Err (Res × List Name) :=
  match holdStore minCores r [] l with
  | .error e => .error e
  | .ok (r', changed) =>
    match release r' changed with
    | .error e => .error e
    | .ok r'' => .ok (r'', changed)

/-- A single assignment: `None` is stored without cross validation (base.py:457-460), and an
explicit `None` for `cluster_max_workers` is replaced by the limit (base.py:455-464). -/
def assignNow (minCores : Rat) (r : Res) (s : Setting) : Except Err Res :=
  if s.typeOk minCores then
    match s with
    | .maxMemory none => .ok (r.store s)
    | .maxCores none => .ok (r.store s)
    | .maxWorkers none =>
      if r.changes s then
        match workerLimit r with
        | .error e => .error e
        | .ok n => .ok (r.store (.maxWorkers n))
      else .ok (r.store s)
    | _ =>
      match crossValidate r s with
      | .error e => .error e
      | .ok s' => .ok (r.store s')
  else .error .trait

/-- Several single assignments (base.py:99). -/
def assignAll (minCores : Rat) : Res → List Setting → Except Err Res
  | r, [] => .ok r
  | r, s :: l =>
    match assignNow minCores r s with
    | .error e => .error e
    | .ok r' => assignAll minCores r' l

/-- base.py:99 `self.cluster_config_class(parent=self, **overrides)`; `shuffle` is the order in which
a set is iterated. -/
def build (minCores : Rat) (shuffle : List Setting → List Setting) (file overrides : List Setting) :
    Except Err Res :=
  match hold minCores {} overrides with
  | .error e => .error e
  | .ok (r1, _) =>
    match hold minCores r1 file with
    | .error e => .error e
    | .ok (r2, changed) =>
      assignAll minCores r2 (shuffle (overrides.filter (fun s => decide (s.name ∈ changed))))

/-- base.py:470-475 `to_dict`: the value of `cluster_max_workers`, by its default (base.py:466-468)
if it was never assigned. -/
def effectiveMaxWorkers (r : Res) : Except Err (Option Int) :=
  match r.maxWorkers with
  | some n => .ok n
  | none => workerLimit r

end Verif.Config
