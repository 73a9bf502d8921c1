import Verif.Utils.Model
import Verif.Dict
/-
Model of the rate limited Kubernetes clients of the controller: `RateLimitedClient` of
backends/kubernetes/utils.py, the two of them that `KubeController.setup` makes
(backends/kubernetes/controller.py:355-371), and `RateLimiter.acquire` of utils.py, which makes the
caller sleep.

A course is a list of events with the times at which they happen: a call is asked for, a sleeping call
wakes up, a sleeping call is cancelled. What the Kubernetes library answers is not modelled, only which
of its methods is called, when, and with which arguments.
-/
namespace Verif.Kube.Limited
open Verif.Utils

/-- The two wrapped clients (controller.py:366-371): `CoreV1Api` and `CustomObjectsApi`. -/
inductive Side where
  | core
  | custom
deriving DecidableEq, Repr

/-- A call `client.name(args)` of code of the controller, e.g. controller.py:760. -/
structure Call (α : Type) where
  side : Side
  name : List Char
  args : α
deriving DecidableEq, Repr

/-- A call that sleeps in `acquire` (kubernetes/utils.py:46): its number, the method that will be
called and with what, and when the sleep is over. -/
structure Waiting (α : Type) where
  id : Nat
  method : Call α
  due : Rat
deriving DecidableEq, Repr

/-- A call that went out to Kubernetes (kubernetes/utils.py:47). -/
structure Sent (α : Type) where
  id : Nat
  method : Call α
  due : Rat
  time : Rat
deriving DecidableEq, Repr

/-- The wrapped clients with their one rate limiter (controller.py:355-371). `cache` is what the two
`_cache` hold (kubernetes/utils.py:33): under a name the method that its function calls. -/
structure St (α : Type) where
  limiter : Limiter
  cache : Side → List (List Char × (Side × List Char))
  asked : Nat
  waiting : List (Waiting α)
  sent : List (Sent α)

/-- controller.py:355-371 the clients when the controller is set up at `start`; `none` is the
`ZeroDivisionError` of the rate limiter. -/
def St.new (α : Type) (rate burst start : Rat) : Option (St α) :=
  (Limiter.new rate burst start).map
    (fun l => { limiter := l, cache := fun _ => [], asked := 0, waiting := [], sent := [] })

/-- The attributes that `RateLimitedClient` has itself (kubernetes/utils.py:30-37), for which Python
does not call `__getattr__`. What every object has (all names of it begin with two underscores) is left
out. -/
def own : List (List Char) :=
  ["rate_limiter".toList, "client".toList, "_cache".toList, "api_client".toList]

/-- What `getattr(client, name)` gives: an attribute of the wrapper, `AttributeError`, or the function
that waits for the rate limiter and then calls the method. -/
inductive Attr where
  | own
  | missing
  | limited (method : Side × List Char)
deriving DecidableEq, Repr

/-- kubernetes/utils.py:39-51 `__getattr__`; `has` says which methods the clients of the Kubernetes
library have. Gives the attribute and the new cache. -/
def attr (has : Side → List Char → Bool) (cache : Side → List (List Char × (Side × List Char)))
    (s : Side) (name : List Char) : Attr × (Side → List (List Char × (Side × List Char))) :=
  if name ∈ own then (.own, cache)
  else if name.head? ≠ some '_' ∧ has s name = true then
    match lookup (cache s) name with
    | some m => (.limited m, cache)
    | none => (.limited (s, name), fun s' => if s' = s then (name, (s, name)) :: cache s else cache s')
  else (.missing, cache)

/-- What can happen. -/
inductive Ev (α : Type) where
  /-- code of the controller evaluates `await client.name(args)` -/
  | ask (c : Call α)
  /-- the sleep of the call with that number is over -/
  | wake (id : Nat)
  /-- the task that awaits the call with that number is cancelled -/
  | cancel (id : Nat)
deriving DecidableEq, Repr

/-- One event at time `t`.

`ask`: kubernetes/utils.py:39-47 with utils.py:118-122; the call goes out at once if there is no delay.
What is no method of the client takes no token. `wake`: kubernetes/utils.py:47; `asyncio.sleep` does
not end early, an event that says so does nothing. `cancel`: the `CancelledError` is raised in the
`sleep` of utils.py:122, so the method is not called; the token stays taken. -/
def St.step {α : Type} (has : Side → List Char → Bool) (st : St α) (t : Rat) : Ev α → St α
  | .ask c =>
    match attr has st.cache c.side c.name with
    | (.limited m, cache) =>
      let d := (st.limiter.delay t).1
      let st' := { st with limiter := (st.limiter.delay t).2, cache := cache, asked := st.asked + 1 }
      if d ≠ 0 then
        { st' with waiting := st.waiting ++ [{ id := st.asked, method := ⟨m.1, m.2, c.args⟩, due := t + d }] }
      else
        { st' with sent := st.sent ++
            [{ id := st.asked, method := ⟨m.1, m.2, c.args⟩, due := t + d, time := t }] }
    | (_, cache) => { st with cache := cache, asked := st.asked + 1 }
  | .wake i =>
    match st.waiting.find? (fun w => w.id = i) with
    | some w =>
      if w.due ≤ t then
        { st with
          waiting := st.waiting.eraseP (fun w => w.id = i)
          sent := st.sent ++ [{ id := w.id, method := w.method, due := w.due, time := t }] }
      else st
    | none => st
  | .cancel i => { st with waiting := st.waiting.filter (fun w => w.id ≠ i) }

/-- A whole course. -/
def St.run {α : Type} (has : Side → List Char → Bool) (st : St α) : List (Rat × Ev α) → St α
  | [] => st
  | (t, e) :: course => (st.step has t e).run has course

end Verif.Kube.Limited
