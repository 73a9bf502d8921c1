/-
Model of how the gateway's server and the Kubernetes controller start and end:
`dask-gateway-server/dask_gateway_server/app.py` (`setup` 193-220, `cleanup` 222-235, `start` 237-244,
`main` 246-262), `utils.py` (`run_main` 293-319), the `setup` and `cleanup` of the authenticators (`auth.py`
391-406), of the backends (`backends/base.py` 139-156, `backends/db_base.py` 822-898, `backends/yarn.py` 191-203,
`backends/kubernetes/backend.py` 355-399, `proxy/core.py` 267-300) and of the controller
(`backends/kubernetes/controller.py` 349-472).

What setup starts is a list of resources in order. A start ends after any of them: it is complete, or an exception is
raised, or a signal comes while it waits. What cleanup does is a list of items in order.
-/
namespace Verif.Startup

/-- What is started and has to be stopped again (app.py:193-220, controller.py:349-450). -/
inductive Res where
  /-- auth.py:392: the HTTP session of the JupyterHub authenticator. -/
  | authSession
  /-- base.py:150: the HTTP session of a backend. -/
  | session
  /-- db_base.py:832-835, controller.py:425-428: the reconciler tasks. -/
  | reconcilers
  /-- core.py:270: the proxy object with its task pool. -/
  | proxyTasks
  /-- core.py:274: the proxy process. -/
  | proxyProcess
  /-- db_base.py:846-850, controller.py:432-433: background tasks. -/
  | background
  /-- yarn.py:192-197: the skein client (a process of its own). -/
  | skein
  /-- backend.py:363, controller.py:365: the client of the Kubernetes API. -/
  | apiClient
  /-- backend.py:371-385, controller.py:386-422: informers. -/
  | informers
  /-- backend.py:386: the task that takes over changes. -/
  | syncTask
  /-- app.py:206-218, controller.py:436-443: the HTTP server. -/
  | runner
deriving DecidableEq, Repr

/-- An item of a cleanup: a resource, and whether the code first looks if it is there (`hasattr`: app.py:222-233,
db_base.py:866-898, controller.py:452-472). -/
structure Item where
  guarded : Bool
  res : Res
deriving DecidableEq, Repr

/-- The kinds of server (the setting `backend_class`, app.py:113-123). -/
inductive Kind where
  /-- local, in-process and batch backends, or YARN (`yarn`), with the database. -/
  | db (yarn : Bool)
  | kube
deriving DecidableEq, Repr

/-- db_base.py:822-864 `setup`, and 267-276 of core.py; backend.py:355-386. -/
def backendStarts : Kind → List Res
  | .db yarn => [.session, .reconcilers, .proxyTasks, .proxyProcess, .background] ++ (if yarn then [.skein] else [])
  | .kube => [.session, .apiClient, .informers, .syncTask]

/-- auth.py:391-402. -/
def authStarts (hub : Bool) : List Res := if hub then [.authSession] else []

/-- app.py:199-218: the authenticator, the backend, the HTTP server. -/
def gatewayStarts (hub : Bool) (k : Kind) : List Res := authStarts hub ++ backendStarts k ++ [.runner]

/-- db_base.py:866-898 `cleanup` (870, 891-893, yarn.py:202-203, core.py:297-300, base.py:156); backend.py:388-399. -/
def backendCleanup : Kind → List Item
  | .db yarn =>
    [⟨true, .background⟩, ⟨true, .reconcilers⟩] ++ (if yarn then [⟨false, .skein⟩] else []) ++
      [⟨true, .proxyTasks⟩, ⟨true, .proxyProcess⟩, ⟨false, .session⟩]
  | .kube => [⟨true, .informers⟩, ⟨true, .syncTask⟩, ⟨true, .apiClient⟩, ⟨false, .session⟩]

/-- auth.py:404-406. -/
def authCleanup (hub : Bool) : List Item := if hub then [⟨true, .authSession⟩] else []

/-- app.py:222-235. -/
def gatewayCleanup (hub : Bool) (k : Kind) : List Item := ⟨true, .runner⟩ :: backendCleanup k ++ authCleanup hub

/-- controller.py:349-450. -/
def controllerStarts : List Res := [.apiClient, .informers, .reconcilers, .background, .runner]

/-- controller.py:452-472. -/
def controllerCleanup : List Item :=
  [⟨true, .reconcilers⟩, ⟨true, .informers⟩, ⟨true, .background⟩, ⟨true, .apiClient⟩, ⟨true, .runner⟩]

/-- A cleanup with the resources `has`: what it stops. `raises`: stopping this resource raises an exception, which
ends the cleanup (app.py:258-262); so does the missing attribute of an item that is not guarded. `stop`: the number
of items after which a signal ends it. -/
def cleanup (has : List Res) (raises : Res → Bool) : List Item → Nat → List Res
  | [], _ => []
  | _, 0 => []
  | i :: rest, n + 1 =>
    if i.res ∈ has then
      if raises i.res then [] else i.res :: cleanup has raises rest n
    else if i.guarded then cleanup has raises rest n
    else []

/-- How a start ends (app.py:246-262). -/
inductive Ending where
  /-- An exception after the first `n` resources (app.py:250-254). -/
  | fails (n : Nat)
  /-- SIGTERM or SIGINT after the first `n` resources: while starting, or when all is started (app.py:189-191). -/
  | signal (n : Nat)
deriving DecidableEq, Repr

/-- What is left of a server when its process exits (app.py:246-262). -/
structure Outcome where
  exitCode : Nat
  started : List Res
  stopped : List Res
deriving DecidableEq, Repr

/-- app.py:237-262 `start` and `main`, utils.py:293-319 `run_main`: what setup started, up to the point where it ended,
is cleaned up; `again`: a further signal after this many items of the cleanup. With an exception in setup the process
exits with code 1 (254); with a signal the loop is left, the main task is cancelled and runs its cleanup (utils.py:311),
and the exit code is 0 (243-244). The same holds for a further signal during the cleanup, which is then left as it is. -/
def main (starts : List Res) (items : List Item) (raises : Res → Bool) (e : Ending) (again : Option Nat) : Outcome :=
  let has := match e with | .fails n => starts.take n | .signal n => starts.take n
  { exitCode := match e, again with | .fails _, none => 1 | _, _ => 0,
    started := has,
    stopped := cleanup has raises items (match again with | none => items.length | some n => n) }

end Verif.Startup
