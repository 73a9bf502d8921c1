import Verif.Utils.Model
import Verif.Batch.Model
/-
Model of clusters on YARN: dask-gateway-server/dask_gateway_server/backends/yarn.py, with the parts of
backends/db_base.py that call it (1087-1139, 1251-1384). Calls of skein run in threads (yarn.py:109-110): they take
effect, and their results are picked up, at any later time. Clusters, workers, applications, containers and addresses
are numbers; names of clusters and workers are never used twice (db_base.py:455, 503).
-/
namespace Verif.Yarn

/-- An assignment to a key (yarn.py:126). -/
def upd {α : Type} (f : Nat → α) (k : Nat) (v : α) : Nat → α := fun x => if x = k then v else f x

/-! ### YARN -/

/-- What YARN says of an application (yarn.py:122-125, 234): accepted, running with an address, or ended. -/
inductive Phase where
  | accepted
  | running (addr : Nat)
  | ended
  deriving DecidableEq

/-- An application (yarn.py:212): the cluster for which it was submitted, with whose credentials (yarn.py:156), its
phase, and whether YARN was told to kill it (yarn.py:221), which takes some time. -/
structure App where
  cluster : Nat
  phase : Phase
  told : Bool
  deriving DecidableEq

/-- A container of the service `dask.worker` (yarn.py:239-249): its application, the worker that it was made for, and
whether it still runs. -/
structure Cont where
  app : Nat
  worker : Nat
  alive : Bool
  deriving DecidableEq

/-! ### The gateway -/

/-- `skein.ApplicationClient` (yarn.py:128): address, application, and whose credentials. -/
structure Client where
  app : Nat
  addr : Nat
  creds : Nat
  deriving DecidableEq

/-- The state of a cluster in the gateway (db_base.py:1251-1310): `created`; the submission is under way (`starting`);
the id is in the database, the status not yet (`recorded`, db_base.py:1257-1258); `submitted`, for all states up to the end; `do_stop_cluster` under
way (`stopping`); `stopped`. -/
inductive CStat where
  | created
  | starting
  | recorded
  | submitted
  | stopping
  | stopped
  deriving DecidableEq

/-- The state of a worker in the gateway (db_base.py:1350-1384). -/
inductive WStat where
  | created
  | starting
  | submitted
  | stopping
  | stopped
  deriving DecidableEq

/-- A call of skein in a thread (yarn.py:109-110): `submit` (212), `add_container` (242), `kill_container` (258) and
`kill_application` (221). -/
inductive Kind where
  | submit (c : Nat)
  | add (w : Nat) (cl : Client)
  | killCont (w : Nat) (cl : Client) (k : Nat)
  | killApp (c a : Nat)
  deriving DecidableEq

/-- How a call has ended (yarn.py:109-110): with an id (or nothing, 0), or an exception. -/
inductive Result where
  | ok (id : Nat)
  | error
  deriving DecidableEq

/-- A call with its result, once it has one, and whether anyone still waits for it (yarn.py:109-110, db_base.py:1254). -/
structure Call where
  kind : Kind
  result : Option Result
  waited : Bool
  deriving DecidableEq

/-- Everything (yarn.py:199-200, db_base.py:109, 239). `appOf` and `contOf` are `app_id` and `container_id` of the states in the
database. -/
structure World where
  apps : Nat → Option App
  nApps : Nat
  conts : Nat → Option Cont
  nConts : Nat
  calls : Nat → Option Call
  nCalls : Nat
  stat : Nat → CStat
  appOf : Nat → Option Nat
  wstat : Nat → WStat
  contOf : Nat → Option Nat
  clients : Utils.Lru Nat Client
  addrs : List (Nat × Nat)

/-- yarn.py:199-200, with no clusters yet; `size` is `app_client_cache_max_size`. -/
def World.init (size : Nat) : World where
  apps := fun _ => none
  nApps := 0
  conts := fun _ => none
  nConts := 0
  calls := fun _ => none
  nCalls := 0
  stat := fun _ => .created
  appOf := fun _ => none
  wstat := fun _ => .created
  contOf := fun _ => none
  clients := ⟨size, []⟩
  addrs := []

/-- What YARN reports as the address of a running application (yarn.py:122-125); an application that is being killed
is still running. -/
def World.report (w : World) (a : Nat) : Option Nat :=
  match w.apps a with
  | some app => match app.phase with
    | .running addr => some addr
    | _ => none
  | none => none

/-- yarn.py:126-130 an address for the application, a client for it, and the caches. -/
def World.newClient (w : World) (c a addr : Nat) : Client × World :=
  (⟨a, addr, c⟩, { w with clients := w.clients.put c ⟨a, addr, c⟩ })

/-- yarn.py:115-130 `_get_app_client`; `none` if it raises. -/
def World.getClient (w : World) (c : Nat) : Option Client × World :=
  match w.clients.get c with
  | (some cl, clients) => (some cl, { w with clients := clients })
  | (none, _) =>
    match w.appOf c with
    | none => (none, w)
    | some a =>
      match Utils.find w.addrs c with
      | some addr => (some (w.newClient c a addr).1, (w.newClient c a addr).2)
      | none =>
        match w.report a with
        | none => (none, w)
        | some addr =>
          (some (w.newClient c a addr).1,
           { (w.newClient c a addr).2 with addrs := Utils.assign w.addrs c addr })

/-- A call is handed to a thread (yarn.py:109-110). -/
def World.call (w : World) (k : Kind) : World :=
  { w with calls := upd w.calls w.nCalls (some ⟨k, none, true⟩), nCalls := w.nCalls + 1 }

/-- The client reaches the master of its application (yarn.py:128): it is running at this address, and the credentials
are its own. -/
def World.reaches (w : World) (cl : Client) : Bool :=
  match w.apps cl.app with
  | some app => decide (app.phase = .running cl.addr) && decide (app.cluster = cl.creds)
  | none => false

/-- The result of a call is noted (yarn.py:109-110). -/
def World.answer (w : World) (i : Nat) (c : Call) (r : Result) : World :=
  { w with calls := upd w.calls i (some { c with result := some r }) }

/-- A container is killed (yarn.py:258). -/
def World.killCont (w : World) (k : Nat) (t : Cont) : World :=
  { w with conts := upd w.conts k (some { t with alive := false }) }

/-- A call of skein takes effect (yarn.py:212, 221, 241-248, 258). A call of a master that cannot be reached fails, and
so does killing a container that the application does not have. -/
def World.exec (w : World) (i : Nat) : World :=
  match w.calls i with
  | some c =>
    match c.result with
    | some _ => w
    | none =>
      match c.kind with
      | .submit cl =>
        { w with apps := upd w.apps w.nApps (some ⟨cl, .accepted, false⟩), nApps := w.nApps + 1 }.answer i c (.ok w.nApps)
      | .add wk cl =>
        if w.reaches cl then
          { w with conts := upd w.conts w.nConts (some ⟨cl.app, wk, true⟩), nConts := w.nConts + 1 }.answer i c (.ok w.nConts)
        else w.answer i c .error
      | .killCont _ cl k =>
        if w.reaches cl then
          match w.conts k with
          | some t => if t.app = cl.app then (w.killCont k t).answer i c (.ok 0) else w.answer i c .error
          | none => w.answer i c .error
        else w.answer i c .error
      | .killApp _ a =>
        match w.apps a with
        | some app => { w with apps := upd w.apps a (some { app with told := true }) }.answer i c (.ok 0)
        | none => w.answer i c .error
  | none => w

/-- A call of skein fails without any effect (yarn.py:212, 221, 241-248, 258), as when YARN is not available. -/
def World.fail (w : World) (i : Nat) : World :=
  match w.calls i with
  | some c => match c.result with
    | none => w.answer i c .error
    | some _ => w
  | none => w

/-- Nobody waits for a call any more (db_base.py:1254, 1353). -/
def World.leave (w : World) (i : Nat) (c : Call) : World :=
  { w with calls := upd w.calls i (some { c with waited := false }) }

/-- yarn.py:222-224 both caches forget a cluster. -/
def World.forget (w : World) (c : Nat) : World :=
  { w with clients := w.clients.discard c, addrs := Utils.erase w.addrs c }

/-- The result of a call is picked up: yarn.py:214 with db_base.py:1255-1257, yarn.py:249 with db_base.py:1354-1357,
yarn.py:257-260 with db_base.py:1376-1384, and yarn.py:221-224 with db_base.py:1290-1308. Exceptions lead to
db_base.py:1262-1273, 1361-1372, 1379-1382 and 1293-1296. -/
def World.finish (w : World) (k : Kind) (r : Result) : World :=
  match k, r with
  | .submit c, .ok a => { w with appOf := upd w.appOf c (some a), stat := upd w.stat c .recorded }
  | .submit c, .error => { w with stat := upd w.stat c .submitted }
  | .add wk _, .ok k => { w with contOf := upd w.contOf wk (some k), wstat := upd w.wstat wk .submitted }
  | .add wk _, .error => { w with wstat := upd w.wstat wk .submitted }
  | .killCont wk _ _, _ => { w with wstat := upd w.wstat wk .stopped }
  | .killApp c _, .ok _ => { w.forget c with stat := upd w.stat c .stopped }
  | .killApp c _, .error => { w with stat := upd w.stat c .stopped }

/-- A coroutine goes on with the result of a call that it waits for (yarn.py:212, 221, 241, 258). -/
def World.resume (w : World) (i : Nat) : World :=
  match w.calls i with
  | some c =>
    match c.waited, c.result with
    | true, some r => (w.leave i c).finish c.kind r
    | _, _ => w
  | none => w

/-- db_base.py:1254, 1262-1273 and 1353, 1361-1372: a start takes too long. The thread goes on. -/
def World.timeout (w : World) (i : Nat) : World :=
  match w.calls i with
  | some c =>
    match c.waited, c.kind with
    | true, .submit cl => { w.leave i c with stat := upd w.stat cl .submitted }
    | true, .add wk _ => { w.leave i c with wstat := upd w.wstat wk .submitted }
    | _, _ => w
  | none => w

/-- What a restarted gateway makes of a cluster (db_base.py:1216-1220, 340-366): a start that was under way is begun again, a stop as well. -/
def CStat.reload : CStat → CStat
  | .starting | .recorded => .created
  | .stopping => .submitted
  | s => s

/-- What a restarted gateway makes of a worker (db_base.py:1241-1243, 368-388). -/
def WStat.reload : WStat → WStat
  | .starting => .created
  | .stopping => .submitted
  | s => s

/-- The gateway is killed at any moment and started again (db_base.py:340-388, yarn.py:191-200). Requests that are on
their way may still take effect. -/
def World.restart (w : World) : World :=
  { w with
    calls := fun i => (w.calls i).map (fun c => { c with waited := false })
    stat := fun c => (w.stat c).reload
    wstat := fun k => (w.wstat k).reload
    clients := ⟨w.clients.maxSize, []⟩
    addrs := [] }

/-- What may happen, in any order (yarn.py:153-260, db_base.py:1251-1384). -/
inductive Op where
  | start (c : Nat)
  | mark (c : Nat)
  | startWorker (k : Nat)
  | stopWorker (k : Nat)
  | check (c : Nat)
  | stop (c : Nat)
  | exec (i : Nat)
  | fail (i : Nat)
  | resume (i : Nat)
  | timeout (i : Nat)
  | restart
  | runs (a addr : Nat)
  | ends (a : Nat)
  deriving DecidableEq

/-- db_base.py:1251-1258, yarn.py:205-212: the submission of a cluster begins. -/
def World.start (w : World) (c : Nat) : World :=
  if w.stat c = .created then { w with stat := upd w.stat c .starting }.call (.submit c) else w

/-- db_base.py:1258: the status of a submitted cluster is put down. -/
def World.mark (w : World) (c : Nat) : World :=
  if w.stat c = .recorded then { w with stat := upd w.stat c .submitted } else w

/-- db_base.py:1350-1372, yarn.py:239-248: the start of a worker begins. `own` gives the cluster of a worker. -/
def World.startWorker (own : Nat → Nat) (w : World) (k : Nat) : World :=
  if w.stat (own k) = .submitted ∧ w.wstat k = .created then
    match w.getClient (own k) with
    | (some cl, w') => { w' with wstat := upd w'.wstat k .starting }.call (.add k cl)
    | (none, w') => { w' with wstat := upd w'.wstat k .submitted }
  else w

/-- db_base.py:1374-1384, yarn.py:251-258: the stop of a worker begins. -/
def World.stopWorker (own : Nat → Nat) (w : World) (k : Nat) : World :=
  if w.stat (own k) = .submitted ∧ w.wstat k = .submitted then
    match w.contOf k with
    | none => { w with wstat := upd w.wstat k .stopped }
    | some t =>
      match w.getClient (own k) with
      | (some cl, w') => { w' with wstat := upd w'.wstat k .stopping }.call (.killCont k cl t)
      | (none, w') => { w' with wstat := upd w'.wstat k .stopped }
  else w

/-- yarn.py:268 the check of workers gets the client of a cluster, which was running when the check began
(db_base.py:1117-1128) and may have been stopped since. Asking for the containers has no effect. -/
def World.check (w : World) (c : Nat) : World :=
  if w.stat c = .submitted ∨ w.stat c = .stopping ∨ w.stat c = .stopped then (w.getClient c).2 else w

/-- yarn.py:216-221, db_base.py:1287-1292: the stop of a cluster begins, possibly before it was started. -/
def World.stop (w : World) (c : Nat) : World :=
  if w.stat c = .created ∨ w.stat c = .submitted then
    match w.appOf c with
    | none => { w with stat := upd w.stat c .stopped }
    | some a => { w with stat := upd w.stat c .stopping }.call (.killApp c a)
  else w

/-- YARN starts the master of an application (yarn.py:122-125). -/
def World.runs (w : World) (a addr : Nat) : World :=
  match w.apps a with
  | some app => if app.phase = .accepted then { w with apps := upd w.apps a (some { app with phase := .running addr }) } else w
  | none => w

/-- An application ends, killed or by itself, with all its containers (yarn.py:234). -/
def World.ends (w : World) (a : Nat) : World :=
  match w.apps a with
  | some app =>
    { w with
      apps := upd w.apps a (some { app with phase := .ended })
      conts := fun k => (w.conts k).map (fun t => if t.app = a then { t with alive := false } else t) }
  | none => w

/-- One of these (yarn.py:205-260). -/
def World.step (own : Nat → Nat) (w : World) : Op → World
  | .start c => w.start c
  | .mark c => w.mark c
  | .startWorker k => w.startWorker own k
  | .stopWorker k => w.stopWorker own k
  | .check c => w.check c
  | .stop c => w.stop c
  | .exec i => w.exec i
  | .fail i => w.fail i
  | .resume i => w.resume i
  | .timeout i => w.timeout i
  | .restart => w.restart
  | .runs a addr => w.runs a addr
  | .ends a => w.ends a

/-- Any number of them (yarn.py:205-260). -/
def World.run (own : Nat → Nat) (w : World) (ops : List Op) : World := ops.foldl (World.step own) w

/-! ### What is submitted -/

/-- A file for the containers, as it is configured (yarn.py:34-60): a path, or a `dict` of options. -/
inductive FileSpec where
  | path (p : Str)
  | opts (d : List (Str × Str))
  deriving DecidableEq

/-- yarn.py:136-142 the files of all containers; `fromDict` is `skein.File.from_dict`, `none` if it raises. -/
def filesOf (fromDict : List (Str × Str) → Option FileSpec) :
    List (Str × FileSpec) → Option (List (Str × FileSpec))
  | [] => some []
  | (k, .path p) :: l => (filesOf fromDict l).map ((k, .path p) :: ·)
  | (k, .opts d) :: l =>
    match fromDict d, filesOf fromDict l with
    | some f, some r => some ((k, f) :: r)
    | _, _ => none

/-- Part of the specification for one kind of containers (yarn.py:155-179); memory is the text that is given to
skein. -/
structure Service where
  memory : Str
  vcores : Nat
  files : List (Str × FileSpec)
  env : List (Str × Str)
  script : Str

/-- The specification of an application (yarn.py:181-187). -/
structure Spec where
  queue : Str
  user : Str
  master : Service
  worker : Service
  instances : Nat
  maxRestarts : Nat

/-- What the specification of a cluster depends on (yarn.py:135-187). -/
structure Given where
  sys : Batch.Sys
  conf : Batch.Conf
  user : Str
  localize : List (Str × FileSpec)
  env : List (Str × Str)

/-- `"%d b" % n` (yarn.py:158, 169) -/
def bytes (n : Nat) : Str := Nat.toDigits 10 n ++ " b".toList

/-- yarn.py:136-142 all files, with those of the credentials. -/
def allFiles (fromDict : List (Str × Str) → Option FileSpec) (g : Given) (cert key : Str) :
    Option (List (Str × FileSpec)) :=
  (filesOf fromDict g.localize).map (fun f =>
    Dict.set (Dict.set f "dask.crt".toList (.path cert)) "dask.pem".toList (.path key))

/-- yarn.py:135-187 `_build_specification`; `none` if it raises. `g.env` is the result of `get_env`. -/
def buildSpec (fromDict : List (Str × Str) → Option FileSpec) (g : Given) (cert key : Str) : Option Spec :=
  (allFiles fromDict g cert key).map (fun files =>
    { queue := g.conf.queue
      user := g.user
      master :=
        { memory := bytes g.conf.schedulerMemory, vcores := g.conf.schedulerCores, files := files,
          env := Env.schedulerEnv g.env "dask.crt".toList "dask.pem".toList,
          script := Batch.yarnSchedulerScript g.sys g.conf }
      worker :=
        { memory := bytes g.conf.workerMemory, vcores := g.conf.workerCores, files := files,
          env := Env.workerEnv g.env "dask.crt".toList "dask.pem".toList,
          script := Batch.yarnWorkerScript g.sys g.conf }
      instances := 0
      maxRestarts := 0 })

end Verif.Yarn
