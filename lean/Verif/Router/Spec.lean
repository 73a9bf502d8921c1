import Verif.Router.Model
/-
Specification of HTTP routing: a table from keys to targets, where a key is the list of the
segments of a path.
-/
namespace Verif.Router

/-- Pieces of a string between slashes. -/
def splitSlash : Str → List Str
  | [] => [[]]
  | c :: cs =>
    if c = '/' then [] :: splitSlash cs
    else match splitSlash cs with
      | [] => [[c]]
      | s :: ss => (c :: s) :: ss

/-- One leading slash, if any, removed. -/
def stripLead : Str → Str
  | '/' :: cs => cs
  | cs => cs

/-- One trailing slash, if any, removed. -/
def stripTrail (p : Str) : Str := (stripLead p.reverse).reverse

/-- The key of a path: its segments, without one leading and one trailing slash. The paths "", "/" and
"//" have the empty key. -/
def key (p : Str) : List Str :=
  if stripTrail (stripLead p) = [] then [] else splitSlash (stripTrail (stripLead p))

/-- A routing table. -/
abbrev Table (U : Type) := List Str → Option U

variable {U : Type}

/-- The table that a history of updates describes: the last update of a key counts. -/
def tableOf (ops : List (Op U)) : Table U :=
  ops.foldl (fun m o => match o with
    | .put p u => fun k => if k = key p then some u else m k
    | .delete p => fun k => if k = key p then none else m k) (fun _ => none)

/-- `k` is the longest prefix of `segs` with a route, and the route is `u`. -/
def Longest (m : Table U) (segs k : List Str) (u : U) : Prop :=
  k <+: segs ∧ m k = some u ∧ ∀ k', k' <+: segs → (m k').isSome → k'.length ≤ k.length

/-- Segments joined by slashes. -/
def joinSlash : List Str → Str
  | [] => []
  | [s] => s
  | s :: ss => s ++ '/' :: joinSlash ss

/-- "/" if the path ends in a slash, else "". -/
def trailing (p : Str) : Str := if p.getLast? = some '/' then ['/'] else []

/-- Observation of the trie: the node reached by following `k`. -/
def walk : Router U → List Str → Option (Router U)
  | r, [] => some r
  | r, s :: k => match getB r.branches s with
    | none => none
    | some c => walk c k

end Verif.Router
