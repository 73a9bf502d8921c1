import Verif.Auth.Model
import Verif.Client.Model

/-!
A client and the gateway together: the cookie jar and the authentication hooks of the client
(dask-gateway/dask_gateway/client.py:385-422, auth.py), the cookie cache and the authenticators of the
gateway (dask-gateway-server/dask_gateway_server/auth.py, routes.py:9-21), and Kerberos on both sides.
"client" in a citation is dask-gateway/dask_gateway, "server" is
dask-gateway-server/dask_gateway_server.
-/

namespace Verif.Session

open Verif.Auth (User Cache Op Out Outcome split1)
open Verif.Client (Resp Exn conclude)

/-! ### The gateway -/

/-- What `authenticate` does (server auth.py:128-145): a user with the context for `pre_response`, or an
exception that becomes a response with this status and `WWW-Authenticate` header. -/
inductive Login where
  | user (u : User) (context : Option Str)
  | fail (code : Nat) (www : Option Str)
  deriving DecidableEq

/-- What a handler does (server routes.py:9-21): it returns a response, or raises, and then the outer
wrapper (or aiohttp, for an exception of another kind) makes a response of the exception. -/
inductive Handled where
  | returned (r : Resp)
  | raised (r : Resp)
  deriving DecidableEq

/-- The response in either case (server routes.py:12-19). -/
def Handled.resp : Handled → Resp
  | .returned r => r
  | .raised r => r

/-- A response with the headers that matter here (server auth.py:103-105, 277-278). -/
structure SResp where
  body : Resp
  www : Option Str
  cookie : Option Nat
  deriving DecidableEq

/-- The response for an exception before the handler (server routes.py:14-19). Its body is not
modelled. -/
def failure (code : Nat) (www : Option Str) : SResp :=
  { body := { status := code, json := none, text := [] }, www := www, cookie := none }

/-- server auth.py:86-88 the cookie of a request looked up, if it has one. -/
def lookupCookie (c : Cache) (cookie : Option Nat) (t : Rat) : Cache × Out :=
  match cookie with
  | none => (c, .who none)
  | some k => c.get k t

/-- server auth.py:84-107 `authenticate_and_handle` with the error wrapper around it
(routes.py:9-21): the cache afterwards, the users the handler was called for, and the response. `t` is
the time of the lookup and `t'` that of the new cookie; `during` are the uses of the cache by other
requests in between. -/
def serve (login : Option Str → Login) (c : Cache) (during : List Op) (t t' : Rat)
    (handler : User → Handled) (cookie : Option Nat) (header : Option Str) :
    Cache × List User × SResp :=
  match lookupCookie c cookie t with
  | (c1, .who (some u)) =>
    ((c1.run during).1, [u], { body := (handler u).resp, www := none, cookie := none })
  | (c1, .who none) =>
    match login header with
    | .fail code www => (c1, [], failure code www)
    | .user u context =>
      match handler u with
      | .raised r => ((c1.run during).1, [u], { body := r, www := none, cookie := none })
      | .returned r =>
        match (c1.run during).1.put u t' with
        | (c2, .gave k) =>
          (c2, [u], { body := r, www := context.map ("Negotiate ".toList ++ ·), cookie := some k })
        | (c2, _) => (c2, [u], failure 500 none) -- not reached: `put` does not raise
  | (c1, _) => (c1, [], failure 500 none)

/-- The Kerberos library on the server (server auth.py:244-263): the principal and the answer for a
token of a client, `none` for `GSSError`. -/
structure Gss where
  step : Str → Option (Str × Str)

/-- server auth.py:235-275 `KerberosAuthenticator.authenticate`. -/
def kerberosLogin (g : Gss) (header : Option Str) : Login :=
  match header with
  | none => .fail 401 (some "Negotiate".toList)
  | some [] => .fail 401 (some "Negotiate".toList)
  | some h =>
    match split1 ' ' h with
    | none => .fail 500 none
    | some (kind, key) =>
      if kind ≠ "Negotiate".toList then .fail 401 (some "Negotiate".toList)
      else
        match g.step key with
        | none => .fail 500 none
        | some (principal, answer) =>
          .user { name := principal.takeWhile (fun c => c != '@') } (some answer)

/-- The other authenticators have no context (server auth.py:208, 463-470). -/
def plainLogin (authenticate : Option Str → Outcome) (header : Option Str) : Login :=
  match authenticate header with
  | .user u => .user u none
  | .fail code => .fail code none

/-! ### The client -/

/-- The hooks of the client's authentication (client auth.py:59-97): the header to add, `none` if the
hook raises, and whether a response with this `WWW-Authenticate` header is accepted. -/
structure Hooks where
  pre : Option Str
  post : Option Str → Bool

/-- client auth.py:100-116 `BasicAuth`. -/
def basicHooks (username password : Str) : Hooks :=
  { pre := Auth.basicHeader username password, post := fun _ => true }

/-- client auth.py:149-165 `JupyterHubAuth`. -/
def hubHooks (token : Str) : Hooks := { pre := some (Auth.hubHeader token), post := fun _ => true }

/-- client auth.py:122, 141-143 the token in the header, for a header with a single challenge, as the
gateway sends it. Headers with several challenges are not modelled (`none`). -/
def negotiateToken (h : Str) : Option Str :=
  if "Negotiate".toList.isPrefixOf h = true ∧ ',' ∉ h then
    some ((h.drop 9).dropWhile (fun c => c == ' '))
  else none

/-- client auth.py:119-146 `KerberosAuth`: `token` is what the library gives for the first step and
`verify` whether it accepts the answer of the server. -/
def kerberosHooks (token : Option Str) (verify : Str → Bool) : Hooks :=
  { pre := token.map ("Negotiate ".toList ++ ·)
    post := fun www =>
      match www with
      | none => false
      | some h =>
        match negotiateToken h with
        | none => false
        | some [] => false
        | some (x :: t) => verify (x :: t) }

/-- The cache of the gateway and the cookie in the jar of the client (client client.py:386-395). -/
structure World where
  cache : Cache
  jar : Option Nat

/-- One HTTP request of the client, as it goes (client client.py:397, 401): the uses of the cache by
other requests before and during it, the times of its own uses, whether the jar drops its cookie before
(it has an age limit, server auth.py:105), and the authenticator as it answers now. -/
structure Send where
  before : List Op
  during : List Op
  t : Rat
  t' : Rat
  drop : Bool
  login : Option Str → Login

/-- The request sent and answered (client client.py:397, 401, server auth.py:84-107). -/
def Send.go (s : Send) (handler : User → Handled) (header : Option Str) (w : World) :
    World × List User × SResp :=
  let jar := if s.drop = true then none else w.jar
  match serve s.login (w.cache.run s.before).1 s.during s.t s.t' handler jar header with
  | (c, hs, r) =>
    ({ cache := c, jar := match r.cookie with | some k => some k | none => jar }, hs, r)

/-- A call of the user: up to two requests, and what the handler of the gateway does with a request
(client client.py:385-422). -/
structure Call where
  first : Send
  second : Send
  handler : User → Handled

/-- client client.py:385-422 `_request`: also the users for which the gateway handled the requests of
this call. -/
def Call.go (k : Call) (h : Hooks) (w : World) : World × List User × Except Exn Resp :=
  match k.first.go k.handler none w with
  | (w1, hs, r) =>
    if r.body.status = 401 then
      match h.pre with
      | none => (w1, hs, .error .other)
      | some header =>
        match k.second.go k.handler (some header) w1 with
        | (w2, hs', r') =>
          (w2, hs ++ hs', if h.post r'.www = true then conclude r'.body else .error .other)
    else (w1, hs, conclude r.body)

/-- A history of one client (client client.py:385-422): its calls, uses of the cache by others, and
restarts of the gateway, whose cache and cookie name are new (server auth.py:62-64, 79-82): the old
cookie is not looked at any more. -/
inductive Ev where
  | call (k : Call)
  | others (l : List Op)
  | restart

/-- The history so far (server auth.py:84-107, client client.py:385-422). -/
def run (m : Rat) (h : Hooks) : List Ev → World → World × List (List User × Except Exn Resp)
  | [], w => (w, [])
  | .call k :: es, w =>
    let (w', hs, r) := k.go h w
    let (w'', l) := run m h es w'
    (w'', (hs, r) :: l)
  | .others l :: es, w => run m h es { w with cache := (w.cache.run l).1 }
  | .restart :: es, _ => run m h es { cache := Cache.empty m, jar := none }

end Verif.Session
