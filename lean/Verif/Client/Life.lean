import Verif.Dict
/-
Model of the life of a cluster object of the client and of its table of workers:
dask-gateway/dask_gateway/client.py:755-764, 870-1052, 1118-1145.
-/
namespace Verif.Client

/-- The states of a cluster object (client.py:883, 919, 947, 961, 1010, 1020), with `created` and
`starting` as one: the start is one step here. -/
inductive ObjStatus where
  | created | running | closing | closed
  deriving DecidableEq

/-- A cluster object and what the server got of it: the cluster that was created for it, and the stop
requests (client.py:870-919). -/
structure Obj where
  asynchronous : Bool
  /-- `shutdown_on_close` (client.py:885) -/
  shutdownOnClose : Bool
  /-- client.py:913, 948 -/
  name : Option Str
  status : ObjStatus
  /-- whether it is among the objects to be closed at exit (client.py:802, 887, 981) -/
  lingering : Bool
  created : Option Str
  stops : List Str
  deriving DecidableEq

/-- client.py:870-919 a new object: for a new cluster, or for one of that name. -/
def Obj.new (asynchronous shutdownOnClose : Bool) (name : Option Str) : Obj :=
  { asynchronous, shutdownOnClose, name, status := .created, lingering := true, created := none, stops := [] }

/-- How starting ends (client.py:931-961). -/
inductive StartEnd where
  /-- the submission is refused or does not reach the server (client.py:948) -/
  | refused
  /-- the server creates the cluster, but the answer is lost or the caller interrupted (client.py:948) -/
  | lost (name : Str)
  /-- waiting or connecting raises, or is interrupted (client.py:953-960) -/
  | failed (name : Str)
  /-- client.py:961 -/
  | running (name : Str)
  deriving DecidableEq

/-- client.py:980-1020 `_stop_internal`. `clean` tells that closing the connections raised nothing; the
request to stop is sent anyway. -/
def Obj.stop (o : Obj) (shutdown : Option Bool) (clean : Bool) : Obj :=
  { o with
    lingering := false
    status := if o.status = .closed then .closed else if clean then .closed else .closing
    stops :=
      match o.name with
      | some n => if shutdown.getD o.shutdownOnClose then o.stops ++ [n] else o.stops
      | none => o.stops }

/-- client.py:931-961 `_start_internal` of an object for a new cluster (`name` is `none`) or for a named
one. -/
def Obj.start (o : Obj) (e : StartEnd) (clean : Bool) : Obj :=
  if o.status ≠ .created then o
  else
    match o.name with
    | none =>
      match e with
      | .refused => o.stop none clean
      | .lost n => { o with created := some n }.stop none clean
      | .failed n => { o with created := some n, name := some n }.stop none clean
      | .running n => { o with created := some n, name := some n, status := .running }
    | some _ =>
      match e with
      | .running _ => { o with status := .running }
      | _ => o.stop none clean

/-- client.py:1031-1048 `close`. -/
def Obj.close (o : Obj) (shutdown : Option Bool) (clean : Bool) : Obj :=
  if o.asynchronous then o.stop shutdown clean
  else if o.status = .closed then o
  else o.stop shutdown clean

/-- client.py:755-764 `cleanup_lingering_clusters`. -/
def Obj.exit (o : Obj) (clean : Bool) : Obj :=
  if o.lingering ∧ o.asynchronous = false then o.close none clean else o

/-- What is done with a cluster object (client.py:755-764, 920-1040). -/
inductive OOp where
  /-- client.py:920-921, 931 -/
  | start (e : StartEnd) (clean : Bool)
  /-- client.py:1031 -/
  | close (shutdown : Option Bool) (clean : Bool)
  /-- client.py:755-764 -/
  | exit (clean : Bool)
  deriving DecidableEq

/-- One step (client.py:755-764, 931-1048). -/
def Obj.step (o : Obj) : OOp → Obj
  | .start e clean => o.start e clean
  | .close shutdown clean => o.close shutdown clean
  | .exit clean => o.exit clean

/-- A history (client.py:755-764, 931-1048). -/
def Obj.run (o : Obj) (ops : List OOp) : Obj := ops.foldl Obj.step o

/-! ### The table of workers -/

/-- A message of the scheduler about its workers (client.py:1132-1138). -/
inductive WatchMsg (α : Type) where
  | add (workers : List (Str × α))
  | remove (worker : Str)
  deriving DecidableEq

/-- client.py:1132-1138 one message; `none` is the `KeyError` that ends the watching. -/
def watchStep {α : Type} (t : List (Str × α)) : WatchMsg α → Option (List (Str × α))
  | .add ws => some (Dict.update t ws)
  | .remove w => if (lookup t w).isSome then some (t.filter (fun e => e.1 ≠ w)) else none

/-- client.py:1123-1143 the messages one after the other. -/
def watch {α : Type} (t : List (Str × α)) : List (WatchMsg α) → List (Str × α)
  | [] => t
  | m :: l =>
    match watchStep t m with
    | none => t
    | some t' => watch t' l

end Verif.Client
