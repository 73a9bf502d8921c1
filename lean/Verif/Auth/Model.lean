import Verif.Json
/-
Model of dask-gateway-server/dask_gateway_server/auth.py (the cookie cache, the `Simple` and the
`JupyterHub` authenticators) and of dask-gateway/dask_gateway/auth.py (`BasicAuth`,
`JupyterHubAuth`).

Kerberos is in `Verif.Session`. Not modelled: the Kerberos library, the HTTP transport, the texts of
error responses. An exception that is not an HTTP exception makes aiohttp answer 500, so it is
`Outcome.fail 500` here.
-/
namespace Verif.Auth

/-- models.py:41-57 `User` (server). `groups` is a set in the code; its order is irrelevant. -/
structure User where
  name : Str
  groups : List Str := []
  admin : Bool := false
  deriving DecidableEq

/-- What `authenticate` (auth.py:128-145) does: it returns a user, or raises, and then the response
has the given status code. -/
inductive Outcome where
  | user (u : User)
  | fail (code : Nat)
  deriving DecidableEq

/-- `s.split(c, 1)` unpacked into two variables (auth.py:198, 203, 411; routes.py:34): `none` is the
`ValueError` raised if the separator does not occur. -/
def split1 (c : Char) : Str → Option (Str × Str)
  | [] => none
  | x :: s => if x = c then some ([], s) else (split1 c s).map (fun p => (x :: p.1, p.2))

/-! ### The cookie cache -/

/-- auth.py:21-25 `UserCache`. A Python dictionary is a function to `Option`. `uuid.uuid4().hex`
never repeats a value: cookies are numbers and `next` is the next one. A client may present any
number. -/
structure Cache where
  maxAge : Rat
  nameToCookie : Str → Option Nat
  cookieToUser : Nat → Option (Rat × User)
  next : Nat

/-- A dictionary with one entry set (`some`) or deleted (`none`) (auth.py:33-34, 43-44). -/
def upd {α β : Type} [DecidableEq α] (f : α → Option β) (k : α) (v : Option β) : α → Option β :=
  fun x => if x = k then v else f x

/-- auth.py:22-25 `UserCache.__init__`. -/
def Cache.empty (maxAge : Rat) : Cache :=
  { maxAge, nameToCookie := fun _ => none, cookieToUser := fun _ => none, next := 0 }

/-- The result of one operation on the cache (auth.py:27-45). -/
inductive Out where
  /-- `get` returned this -/
  | who (u : Option User)
  /-- `put` returned this cookie -/
  | gave (cookie : Nat)
  /-- `del` raised `KeyError` -/
  | keyError
  deriving DecidableEq

/-- auth.py:27-36 `UserCache.get`. Lines 28-33 cannot raise (the entry was just read); the `del` on
line 34 raises if the name has no entry, after the `del` on line 33 took effect. -/
def Cache.get (c : Cache) (cookie : Nat) (now : Rat) : Cache × Out :=
  match c.cookieToUser cookie with
  | none => (c, .who none)
  | some (timestamp, user) =>
    if timestamp + c.maxAge < now then
      let c' := { c with cookieToUser := upd c.cookieToUser cookie none }
      match c.nameToCookie user.name with
      | none => (c', .keyError)
      | some _ => ({ c' with nameToCookie := upd c.nameToCookie user.name none }, .who none)
    else (c, .who (some user))

/-- auth.py:38-45 `UserCache.put`. -/
def Cache.put (c : Cache) (user : User) (now : Rat) : Cache × Out :=
  match c.nameToCookie user.name with
  | some cookie => (c, .gave cookie)
  | none =>
    ({ c with
        nameToCookie := upd c.nameToCookie user.name (some c.next)
        cookieToUser := upd c.cookieToUser c.next (some (now, user))
        next := c.next + 1 }, .gave c.next)

/-- The two uses of the cache in `authenticate_and_handle`: a request presents a cookie
(auth.py:86-91), or a request that was authenticated as `user` and handled gets a cookie
(auth.py:104-105). There is no `await` inside either, so requests interleave only between them. -/
inductive Op where
  | present (cookie : Nat) (now : Rat)
  | issue (user : User) (now : Rat)

/-- One use of the cache (auth.py:88, 104). -/
def Cache.step (c : Cache) : Op → Cache × Out
  | .present cookie now => c.get cookie now
  | .issue user now => c.put user now

/-- A history of uses of the cache, oldest first, and what each returned (auth.py:84-107). -/
def Cache.run (c : Cache) : List Op → Cache × List Out
  | [] => (c, [])
  | o :: os =>
    let (c', x) := c.step o
    let (c'', xs) := c'.run os
    (c'', x :: xs)

/-- auth.py:84-100 the user a request is handled for: the one the cookie cache knows, or else the
result of the full authentication. `cached` is what `cache.get` returned (`none` also if the request
has no cookie); the full authentication is not reached if the cookie is good. -/
def identify (cached : Option User) (login : Outcome) : Outcome :=
  match cached with
  | some u => .user u
  | none => login

/-! ### Basic authentication -/

/-- The 64 characters of base64 in order, as used by `b64encode` (client auth.py:115). -/
def alphabet : Str :=
  "ABCDEFGHIJKLMNOPQRSTUVWXYZabcdefghijklmnopqrstuvwxyz0123456789+/".toList

/-- The character for a number below 64 (client auth.py:115). -/
def b64char (n : Nat) : Char := alphabet.getD n '='

/-- `base64.b64encode` (client auth.py:115); a byte is a number below 256. -/
def b64encode : List Nat → Str
  | [] => []
  | [a] => [b64char (a / 4), b64char (a % 4 * 16), '=', '=']
  | [a, b] => [b64char (a / 4), b64char (a % 4 * 16 + b / 16), b64char (b % 16 * 4), '=']
  | a :: b :: c :: r =>
    b64char (a / 4) :: b64char (a % 4 * 16 + b / 16) :: b64char (b % 16 * 4 + c / 64) ::
      b64char (c % 64) :: b64encode r

/-- The loop of `base64.b64decode` as called on auth.py:202 (not strict: characters outside the
alphabet are skipped). `quad` is the position in the group of four, `left` the bits kept from the
last character, `pads` the number of `=` seen since the last character of the alphabet. `none` is
`binascii.Error`. -/
def b64decodeLoop : (quad left pads : Nat) → Str → Option (List Nat)
  | quad, _, _, [] => if quad = 0 then some [] else none
  | quad, left, pads, x :: s =>
    if x = '=' then
      if quad < 2 then b64decodeLoop quad left pads s
      else if quad + (pads + 1) ≥ 4 then some []
      else b64decodeLoop quad left (pads + 1) s
    else
      match alphabet.idxOf? x with
      | none => b64decodeLoop quad left pads s
      | some v =>
        match quad with
        | 0 => b64decodeLoop 1 v 0 s
        | 1 => (b64decodeLoop 2 (v % 16) 0 s).map ((left * 4 + v / 16) :: ·)
        | 2 => (b64decodeLoop 3 (v % 4) 0 s).map ((left * 16 + v / 4) :: ·)
        | _ => (b64decodeLoop 0 0 0 s).map ((left * 64 + v) :: ·)

/-- `base64.b64decode(auth_key)` (auth.py:202): a string with a character outside ASCII raises
`ValueError`. -/
def b64decode (s : Str) : Option (List Nat) :=
  if s.all (fun x => x.toNat < 128) then b64decodeLoop 0 0 0 s else none

/-- `s.encode("latin1")` (client auth.py:113): `none` is `UnicodeEncodeError`. -/
def latin1 (s : Str) : Option (List Nat) :=
  if s.all (fun x => x.toNat < 256) then some (s.map Char.toNat) else none

/-- `b.decode("ascii")` (auth.py:202): `none` is `UnicodeDecodeError`. -/
def ascii (b : List Nat) : Option Str :=
  if b.all (· < 128) then some (b.map Char.ofNat) else none

/-- client auth.py:111-116 `BasicAuth.pre_request`: the header the client adds. -/
def basicHeader (username password : Str) : Option Str :=
  match latin1 username, latin1 password with
  | some u, some p => some ("Basic ".toList ++ b64encode (u ++ ':'.toNat :: p))
  | _, _ => none

/-- auth.py:193-208 `SimpleAuthenticator.authenticate`. -/
def simpleAuthenticate (configured : Option Str) (header : Option Str) : Outcome :=
  match header with
  | none => .fail 401
  | some [] => .fail 401
  | some h =>
    match split1 ' ' h with
    | none => .fail 500
    | some (kind, key) =>
      if kind ≠ "Basic".toList then .fail 401
      else
        match (b64decode key).bind ascii with
        | none => .fail 500
        | some text =>
          match split1 ':' text with
          | none => .fail 500
          | some (user, password) =>
            match configured with
            | none => .user { name := user }
            | some pw =>
              if pw ≠ [] ∧ password ≠ pw then .fail 401 else .user { name := user }

/-! ### JupyterHub -/

/-- The reply of `GET /user` that auth.py:431-463 reads: `data["name"]`, `data["kind"]`,
`data.get("scopes", [])`, `data.get("groups", [])`, `data.get("admin", False)`. -/
structure HubData where
  name : Str
  kind : Str
  scopes : List Str := []
  groups : List Str := []
  admin : Bool := false
  deriving DecidableEq

/-- The hub's answer: a status code and the decoded body. `none` is a body that is not the expected
JSON object (`KeyError`, a decoding error) (auth.py:424-447). -/
structure HubReply where
  status : Nat
  data : Option HubData

/-- auth.py:318-359 the settings; `useScopes` is `none` if it is not configured. -/
structure HubCfg where
  serviceName : Str
  useScopes : Option Bool := none

/-- auth.py:348-359 `use_service_access_scopes` and its default. -/
def HubCfg.enforce (c : HubCfg) : Bool := c.useScopes.getD (decide (c.serviceName ≠ []))

/-- auth.py:434-439 the gateway's name for a hub principal. -/
def hubUsername (kind name : Str) : Str :=
  if kind ≠ "user".toList ∨ ':' ∈ name then kind ++ ':' :: name else name

/-- auth.py:408-414 `get_token`; the outer `none` is `ValueError`. -/
def hubToken (header : Option Str) : Option (Option Str) :=
  match header with
  | none => some none
  | some [] => some none
  | some h =>
    match split1 ' ' h with
    | none => none
    | some (kind, key) => some (if kind = "jupyterhub".toList then some key else none)

/-- auth.py:444-447 the scopes that grant access. -/
def hubAccessScopes (c : HubCfg) : List Str :=
  ["access:services".toList, "access:services!service=".toList ++ c.serviceName]

/-- auth.py:416-484 `JupyterHubAuthenticator.authenticate`; `reply token` is the hub's answer to a
request with that token. -/
def hubAuthenticate (c : HubCfg) (header : Option Str) (reply : Str → HubReply) : Outcome :=
  match hubToken header with
  | none => .fail 500
  | some none => .fail 401
  | some (some token) =>
    let r := reply token
    if r.status < 400 then
      match r.data with
      | none => .fail 500
      | some d =>
        if c.enforce = true ∧ (hubAccessScopes c).all (fun s => decide (s ∉ d.scopes)) = true then
          .fail 401
        else .user { name := hubUsername d.kind d.name, groups := d.groups, admin := d.admin }
    else if r.status = 404 then .fail 401
    else if r.status = 403 then .fail 500
    else if r.status ≥ 500 then .fail 502
    else .fail 500

/-- client auth.py:164-165 `JupyterHubAuth.pre_request`. -/
def hubHeader (token : Str) : Str := "jupyterhub ".toList ++ token

end Verif.Auth
