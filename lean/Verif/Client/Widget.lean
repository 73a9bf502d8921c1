import Verif.Client.Life
/-
Model of what a cluster object shows in a notebook: dask-gateway/dask_gateway/client.py:967-983, 1118-1231.

Only the status part of the widget is modelled, and of it the three numbers, the memory as a number of bytes (the text
that `format_bytes` of dask makes of it is not modelled). Entries of workers have their `nthreads` and `memory_limit`, as
those of the scheduler do. That the object may be collected while it is watching (1130-1131) is not modelled.
-/
namespace Verif.Client

/-- What the status needs of a worker (client.py:1154-1155). -/
structure WorkerInfo where
  nthreads : Nat
  memory : Nat
  deriving DecidableEq, Repr

/-- The numbers of the status (client.py:1157). -/
structure Status where
  workers : Nat
  threads : Nat
  memory : Nat
  deriving DecidableEq, Repr

/-- The attribute `_cached_widget` (client.py:1162, 1173, 1218) with the value of its status part (1178, 1219). -/
inductive Cached where
  /-- no such attribute -/
  | unset
  /-- `None`: ipywidgets is missing -/
  | missing
  | box (status : Option Status)
  deriving DecidableEq, Repr

/-- The part of a cluster object that is shown. `table` is `scheduler_info["workers"]`, `none` if `scheduler_info` is
empty (client.py:898); `watching` while `_watch_worker_status` runs. -/
structure View where
  asynchronous : Bool
  table : Option (List (Str × WorkerInfo))
  watching : Bool
  cached : Cached

/-- client.py:1147-1157 `_widget_status` -/
def statusOf : Option (List (Str × WorkerInfo)) → Option Status
  | none => none
  | some t => some { workers := t.length, threads := (t.map (·.2.nthreads)).sum, memory := (t.map (·.2.memory)).sum }

/-- client.py:967-983 `_init_internals`: the answer of the scheduler, `none` if it cannot be reached. -/
def View.init (asynchronous : Bool) (answer : Option (List (Str × WorkerInfo))) : View :=
  { asynchronous := asynchronous, table := answer, watching := answer.isSome, cached := .unset }

/-- client.py:1132-1138 the messages of one batch; `false` is the `KeyError` in the middle of it. -/
def batchLoop (t : List (Str × WorkerInfo)) : List (WatchMsg WorkerInfo) → List (Str × WorkerInfo) × Bool
  | [] => (t, true)
  | m :: l =>
    match watchStep t m with
    | none => (t, false)
    | some t' => batchLoop t' l

/-- client.py:1139-1140 -/
def View.refresh (v : View) : View :=
  match v.cached with
  | .box _ => { v with cached := .box (statusOf v.table) }
  | _ => v

/-- What happens to a cluster object: a batch of messages comes, the connection is lost or the object closed, it is
displayed where `ipywidgets` can be imported or cannot. -/
inductive ViewEv where
  | batch (msgs : List (WatchMsg WorkerInfo))
  | lost
  | display (ipywidgets : Bool)
  deriving DecidableEq

/-- client.py:1159-1221 `_widget` -/
def View.widget (v : View) (ipywidgets : Bool) : View :=
  match v.cached with
  | .unset =>
    if v.asynchronous then v
    else if ipywidgets then { v with cached := .box (statusOf v.table) }
    else { v with cached := .missing }
  | _ => v

/-- One event (client.py:1123-1145, 1015-1016, 1223-1231). -/
def View.step (v : View) : ViewEv → View
  | .batch msgs =>
    if v.watching then
      match v.table with
      | none => { v with watching := false }
      | some t =>
        match batchLoop t msgs with
        | (t', true) => ({ v with table := some t' } : View).refresh
        | (t', false) => { v with table := some t', watching := false }
    else v
  | .lost => { v with watching := false }
  | .display ipywidgets => v.widget ipywidgets

/-- A history (client.py:967-983, 1118-1231). -/
def View.run (v : View) (evs : List ViewEv) : View := evs.foldl View.step v

/-- client.py:1223-1231 `_ipython_display_`: the numbers that are seen, `none` if it is the text with the name and the link
only. -/
def View.shown (v : View) : Option (Option Status) :=
  match v.cached with
  | .box s => some s
  | _ => none

end Verif.Client
