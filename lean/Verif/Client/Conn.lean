import Verif.Client.Model
/-
Model of the connections of a client: dask-gateway/dask_gateway/client.py:349-366 (`close`, `_cleanup`), 385-407
(`_request`). A client has one `aiohttp.ClientSession`, made by the first request and kept until the client is closed; its
cookies are those of the login. Requests and closes of one client may run at the same time, as tasks of one event loop:
between two awaits nothing else happens.

What is assumed of aiohttp: a session that is being closed is closed at once, and then its `close` may wait for the
connections (where it does not wait, the end of the close follows at once); closing a session again returns without waiting; a request on a closed session raises `RuntimeError`.
Answers, errors of the connection and the hooks for authentication are those of `Verif.Client.Model`; here only matters
whether an answer is followed by a second request (client.py:399-404).
-/
namespace Verif.Client.Conn

/-- Where a task waits: for the answer to a request on session `s` (`again`: its second one, client.py:397, 401), or for
the end of a close (client.py:359). -/
inductive Pc where
  | asked (s : Nat) (again : Bool)
  | closing
  deriving DecidableEq

/-- A client: `self._session` (client.py:322), how many sessions were made, which of them were closed, and the tasks that
wait. -/
structure Client where
  cur : Option Nat
  made : Nat
  closed : List Nat
  tasks : List (Nat × Pc)
  deriving DecidableEq

/-- client.py:322 a new client. -/
def Client.init : Client := { cur := none, made := 0, closed := [], tasks := [] }

/-- What happens to a client (client.py:357-404). -/
inductive Op where
  /-- A task begins a request. -/
  | request (t : Nat)
  /-- An answer arrives; `login` if its status is 401. -/
  | answer (t : Nat) (login : Bool)
  /-- A task begins to close the client. -/
  | close (t : Nat)
  /-- The connections of the session that a task closes are closed. -/
  | closed (t : Nat)
  /-- A task is cancelled where it waits. -/
  | cancel (t : Nat)
  deriving DecidableEq

/-- What is seen of it: a request goes out on a session, a call is refused with `RuntimeError`, or nothing
(client.py:397, 401). -/
inductive Out where
  | sent (s : Nat)
  | refused
  | nothing
  deriving DecidableEq

/-- What a task waits for (client.py:357-404). -/
def Client.pc (c : Client) (t : Nat) : Option Pc := (c.tasks.find? (fun p => p.1 == t)).map (fun p => p.2)

/-- A task goes on, or ends (client.py:357-404). -/
def Client.drop (c : Client) (t : Nat) : Client := { c with tasks := c.tasks.filter (fun p => !(p.1 == t)) }

/-- A task waits (client.py:359, 397, 401). -/
def Client.wait (c : Client) (t : Nat) (p : Pc) : Client := { c with tasks := (t, p) :: c.tasks }

/-- client.py:386-395 the session of a request: the one of the client, or a new one. -/
def Client.session (c : Client) : Client × Nat :=
  match c.cur with
  | some s => (c, s)
  | none => ({ c with cur := some c.made, made := c.made + 1 }, c.made)

/-- client.py:397, 401 a request on a session. -/
def Client.send (c : Client) (t s : Nat) (again : Bool) : Client × Out :=
  if s ∈ c.closed then (c, .refused) else (c.wait t (.asked s again), .sent s)

/-- client.py:357-404. A task that waits cannot begin anything. -/
def Client.step (c : Client) : Op → Client × Out
  | .request t =>
    match c.pc t with
    | some _ => (c, .nothing)
    | none => c.session.1.send t c.session.2 false
  | .answer t login =>
    match c.pc t with
    | some (.asked s again) => if login && !again then (c.drop t).send t s true else (c.drop t, .nothing)
    | _ => (c, .nothing)
  | .close t =>
    match c.pc t with
    | some _ => (c, .nothing)
    | none =>
      match c.cur with
      | none => (c, .nothing)
      | some s =>
        if s ∈ c.closed then ({ c with cur := none }, .nothing)
        else (({ c with closed := s :: c.closed }).wait t .closing, .nothing)
  | .closed t =>
    match c.pc t with
    | some .closing => ({ c.drop t with cur := none }, .nothing)
    | _ => (c, .nothing)
  | .cancel t => (c.drop t, .nothing)

/-- A course of a client (client.py:357-404). -/
def Client.run (c : Client) (ops : List Op) : Client := ops.foldl (fun c o => (c.step o).1) c

end Verif.Client.Conn
