import Verif.Api.Model
/-! What the properties of the API talk about. -/
namespace Verif.Api

open Verif.Auth (User Outcome)

/-- The request is from `u`: its cookie is `u`'s, or it has no good cookie and the authenticator
accepts it as `u`. -/
def LoggedInAs (req : Request) (u : User) : Prop :=
  req.cached = some u ∨ req.cached = none ∧ req.login = .user u

/-- The request carries the secret token of cluster `c`. -/
def HasToken (req : Request) (c : Cluster) : Prop := req.header = some ("token ".toList ++ c.token)

/-- `c` is the cluster called `n`. -/
def Called (s : List Cluster) (n : Str) (c : Cluster) : Prop := find s n = some c

/-- Who may cause an effect, and with which request. -/
def Allowed (s : List Cluster) (req : Request) : Effect → Prop
  | .start u _ => LoggedInAs req u ∧ req.route = .create
  | .stop n false => ∃ c, Called s n c ∧ c.name = n ∧ req.route = .delete n ∧
      (HasToken req c ∨ ∃ u, LoggedInAs req u ∧ u.name = c.username)
  | .stop n true => ∃ c u, Called s n c ∧ c.name = n ∧ (req.route = .scale n ∨ req.route = .adapt n) ∧
      LoggedInAs req u ∧ u.name = c.username
  | .contact n _ => ∃ c u, Called s n c ∧ c.name = n ∧
      (req.route = .scale n ∨ req.route = .adapt n) ∧ LoggedInAs req u ∧ u.name = c.username
  | .sleep _ => True
  | .heartbeat n _ => ∃ c, Called s n c ∧ c.name = n ∧ req.route = .heartbeat n ∧ HasToken req c

/-- The cluster a route addresses. -/
def Route.cluster : Route → Option Str
  | .get n | .delete n | .scale n | .adapt n | .heartbeat n => some n
  | _ => none

/-- The views of clusters in a response. -/
def Body.views : Body → List View
  | .clusters l => l
  | .cluster v => [v]
  | _ => []

/-- The request has no credentials the gateway accepts: no login, and not the token of the cluster
it addresses. -/
def NoCredentials (s : List Cluster) (req : Request) : Prop :=
  (∀ u, ¬ LoggedInAs req u) ∧
    ∀ n c, req.route.cluster = some n → Called s n c → ¬ HasToken req c

/-- Pieces joined with commas. -/
def joinCommas : List Str → Str
  | [] => []
  | [p] => p
  | p :: q :: ps => p ++ ',' :: joinCommas (q :: ps)

/-- A number that a worker count can be compared with: not NaN, and not above `m`. -/
def AtMost (v : Json) (m : Nat) : Prop := ∃ x, v.asNum = some x ∧ Num.lt (.int m) x = false

/-- The whole number a JSON value stands for (`true` is 1). -/
def Json.whole (v : Json) : Option Int :=
  match v.asNum with
  | some (.int k) => some k
  | _ => none

/-- The number of attempts to contact a scheduler among the effects. -/
def contacts (l : List Effect) : Nat := l.countP (fun e => e matches .contact ..)

end Verif.Api
