import Verif.Backend.Model
/-
Model of the tables of the gateway's database, whose rows the gateway addresses by number, beside the model of the
gateway: dask-gateway-server/dask_gateway_server/backends/db_base.py:46-65, 270-562.

Simplified: the columns `options`, `config`, `token` and `tls_credentials` are left out, as in Verif/Backend/Model.lean
(Verif/Secrets has the last two). The database itself is taken to do what SQL says: `UPDATE` and `DELETE` change all rows
that meet the condition, foreign keys are checked and their rows go with the row they refer to, rows come in the order of
their numbers.
-/
namespace Verif.Backend

/-- db_base.py:59-60 `_IntEnum.process_bind_param`: what is stored of a status (82-88). -/
def JobStatus.stored (s : JobStatus) : Nat := s.n

/-- db_base.py:62-63 `_IntEnum.process_result_value`; `none` is the `ValueError` for other numbers. -/
def JobStatus.ofStored (k : Nat) : Option JobStatus :=
  match k with
  | 1 => some .created
  | 2 => some .submitted
  | 3 => some .running
  | 4 => some .closing
  | 5 => some .stopped
  | 6 => some .failed
  | _ => none

/-- The tables (db_base.py:270-305): `(id, row)` and `(id, cluster_id, row)`, and the last numbers that were given out; and
the numbers that the objects of the gateway carry, also those that it does not know any more but that some task still
holds (db_base.py:141, 253): `(name, id)` and `(name of the cluster, name, id)`. -/
structure Disk where
  clusters : List (Nat × CRow)
  workers : List (Nat × Nat × WRow)
  lastC : Nat
  lastW : Nat
  cl : List (Nat × Nat)
  wk : List (Nat × Nat × Nat)

/-- A new database (db_base.py:333). -/
def Disk.init : Disk := { clusters := [], workers := [], lastC := 0, lastW := 0, cl := [], wk := [] }

/-- The number of a new row (db_base.py:273, 293): `seq` if numbers come from a sequence and are never used again, as in
PostgreSQL. In SQLite it is one more than the largest number in the table, since SQLAlchemy's `autoincrement=True` does
not make it use the keyword `AUTOINCREMENT`. -/
def newId (seq : Bool) (last : Nat) (ids : List Nat) : Nat :=
  if seq then last + 1 else ids.foldr max 0 + 1

/-- db_base.py:522-524, 533-537: `UPDATE clusters ... WHERE id = ...` for the objects of a transaction: what becomes of a
row. -/
def Disk.setC (d : Disk) (f : Nat → CUpd) (e : Nat × CRow) : CRow :=
  (d.cl.filter (fun o => decide (o.2 = e.1))).foldl (fun r o => (f o.1).app r) e.2

/-- db_base.py:544-546, 555-559: `UPDATE workers ... WHERE id = ...`. -/
def Disk.setW (d : Disk) (f : Nat → Nat → WUpd) (e : Nat × Nat × WRow) : WRow :=
  (d.wk.filter (fun o => decide (o.2.2 = e.1))).foldl (fun r o => (f o.1 o.2.1).app r) e.2.2

/-- The number of a cluster object (db_base.py:514). -/
def Disk.idOf (d : Disk) (n : Nat) : Option Nat := (d.cl.find? (fun o => decide (o.1 = n))).map (·.2)

/-- db_base.py:510-516 `create_worker`; nothing is stored if the cluster has no row (foreign key). -/
def Disk.addW (seq : Bool) (d : Disk) (n : Nat) (r : WRow) : Disk :=
  match d.idOf n with
  | none => d
  | some i =>
    if i ∈ d.clusters.map (·.1) then
      { d with
        workers := d.workers ++ [(newId seq d.lastW (d.workers.map (·.1)), i, r)]
        lastW := newId seq d.lastW (d.workers.map (·.1))
        wk := d.wk ++ [(n, r.name, newId seq d.lastW (d.workers.map (·.1)))] }
    else d

/-- db_base.py:385-398: the rows are deleted by number, and those of their workers go with them (297). -/
def Disk.delete (d : Disk) (ids : List Nat) : Disk :=
  { d with
    clusters := d.clusters.filter (fun e => !decide (e.1 ∈ ids))
    workers := d.workers.filter (fun w => !decide (w.2.1 ∈ ids)) }

/-- What a micro-action of the gateway does to the tables (db_base.py:385-562). -/
def Disk.apply (seq : Bool) (d : Disk) : Act → Disk
  | .updC f => { d with clusters := d.clusters.map (fun e => (e.1, d.setC f e)) }
  | .updW f => { d with workers := d.workers.map (fun w => (w.1, w.2.1, d.setW f w)) }
  | .newC r =>
    { d with
      clusters := d.clusters ++ [(newId seq d.lastC (d.clusters.map (·.1)), r)]
      lastC := newId seq d.lastC (d.clusters.map (·.1))
      cl := d.cl ++ [(r.name, newId seq d.lastC (d.clusters.map (·.1)))] }
  | .newW n r => d.addW seq n r
  | .purge p => d.delete ((d.clusters.filter (fun e => p e.2.name)).map (·.1))
  | .putC _ | .putW _ | .volC _ _ | .volW _ _ _ => d

/-- Several micro-actions (db_base.py:385-562). -/
def Disk.applyAll (seq : Bool) (d : Disk) (l : List Act) : Disk := l.foldl (Disk.apply seq) d

/-- db_base.py:365-383: one row of `workers` is put to its cluster; `none` is the `KeyError` if there is no such cluster. -/
def putRow (w : Nat × Nat × WRow) : List (Nat × DbEntry) → Option (List (Nat × DbEntry))
  | [] => none
  | e :: l =>
    if e.1 = w.2.1 then some ((e.1, (e.2.1, e.2.2 ++ [w.2.2])) :: l)
    else (putRow w l).map (fun l' => e :: l')

/-- db_base.py:366-383: the loop over the rows of `workers`. -/
def putRows : List (Nat × Nat × WRow) → List (Nat × DbEntry) → Option (List (Nat × DbEntry))
  | [], l => some l
  | w :: ws, l =>
    match putRow w l with
    | none => none
    | some l' => putRows ws l'

/-- db_base.py:342-383: what a gateway that starts finds in the database. -/
def Disk.load (d : Disk) : Option (List DbEntry) :=
  (putRows d.workers (d.clusters.map (fun e => (e.1, (e.2, []))))).map (fun l => l.map (·.2))

/-- The name of the cluster with a number (db_base.py:366-367). -/
def Disk.nameOf (d : Disk) (i : Nat) : Nat := ((d.clusters.find? (fun e => decide (e.1 = i))).map (fun e => e.2.name)).getD 0

/-- db_base.py:342-383: the objects of a gateway that was started again; all others are gone. -/
def Disk.reload (d : Disk) : Disk :=
  { d with
    cl := d.clusters.map (fun e => (e.2.name, e.1))
    wk := d.workers.map (fun w => (d.nameOf w.2.1, w.2.2.name, w.1)) }

/-- Histories: those of the gateway, and tasks that held an object when its cluster was removed from the database, and
update it after that (db_base.py:1257-1258, 1300-1307, 1356-1357, 1384). -/
inductive DEv where
  | ev (e : Ev)
  | lateC (n : Nat) (u : CUpd)
  | lateW (n w : Nat) (u : WUpd)

/-- A gateway that starts again reads the tables (db_base.py:333-383). If it cannot read them it knows nothing; that it
would not run at all then is left out. -/
def Disk.start (d : Disk) (s : State) (now : Int) : Disk × State :=
  (d.reload, { s with db := d.load.getD [] }.restart now)

/-- One event. An update of a cluster that the gateway knows is not late (db_base.py:385-562, 822-1384). Simplified: which
clusters are old enough for the cleanup (385-391) is decided by what was written for them, see Verif/Backend/Model.lean. -/
def diskEv (seq : Bool) (cfg : Cfg) (x : Disk × State) : DEv → Disk × State
  | .ev (.op o) => (x.1.applyAll seq (acts cfg x.2 o), x.2.step cfg o)
  | .ev (.crash o k now) => (x.1.applyAll seq ((acts cfg x.2 o).take k)).start (x.2.applyAll ((acts cfg x.2 o).take k)) now
  | .lateC n u => if (x.2.find n).isSome then x else (x.1.apply seq (updC1 n u), x.2)
  | .lateW n w u => if (x.2.find n).isSome then x else (x.1.apply seq (updW1 n w u), x.2)

/-- A history, from a new database on (db_base.py:333-339, 822-1384). -/
def diskRun (seq : Bool) (cfg : Cfg) (evs : List DEv) : Disk × State :=
  evs.foldl (diskEv seq cfg) (Disk.init, State.init)

end Verif.Backend
