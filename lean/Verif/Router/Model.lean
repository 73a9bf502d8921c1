/-
Model of `dask-gateway-server/dask-gateway-proxy/pkg/router/router.go` and of
`singleJoiningSlash` in `cmd/dask-gateway-proxy/main.go`.

Go strings are lists of characters here. The code slices strings only next to the one-byte
character '/', so byte offsets and character offsets select the same pieces.
A `*Router` is an immutable tree; an update through a pointer becomes a function that returns the
new tree. A Go map is an association list of which the first entry for a key counts; nil map and
empty map are the same (the code reads from both alike). A loop takes fuel (the path length plus
one is always enough, since every segment but the last consumes a '/').
-/
namespace Verif.Router

/-- Go's `string` (router.go:9): a list of characters. -/
abbrev Str := List Char

/-- router.go:9-22 `normalizePath`: the path without one leading and one trailing slash, and the
number of characters cut off in front. `path[len(path)-1]` is `getLast?`; after cutting the leading
slash the path is not empty because it was not "/". -/
def normalizePath (path : Str) : Str × Nat :=
  if path = [] ∨ path = ['/'] then ([], 0)
  else
    let (p, offset) := if path.head? = some '/' then (path.drop 1, 1) else (path, 0)
    if p.getLast? = some '/' then (p.dropLast, offset) else (p, offset)

/-- router.go:24-33 `getSegment`; the result `-1` is `none`. -/
def getSegment (path : Str) (start : Nat) : Str × Option Nat :=
  if path.length = 0 then (path, none)
  else
    match (path.drop start).idxOf? '/' with
    | none => (path.drop start, none)
    | some e => ((path.drop start).take e, some (start + e + 1))

/-- router.go:35-38 `Router`. -/
inductive Router (U : Type) where
  | node (url : Option U) (branches : List (Str × Router U))

variable {U : Type}

/-- The field `url` (router.go:35-38). -/
def Router.url : Router U → Option U
  | .node u _ => u

/-- The field `branches` (router.go:35-38). -/
def Router.branches : Router U → List (Str × Router U)
  | .node _ b => b

/-- router.go:40-42 `isLeaf`. -/
def Router.isLeaf (r : Router U) : Bool := r.branches.length = 0

/-- router.go:44-46 `NewRouter`. -/
def Router.new : Router U := .node none []

/-- Map read `branches[part]`, nil if absent (router.go:54, 76, 107, 141). -/
def getB (b : List (Str × Router U)) (part : Str) : Option (Router U) :=
  (b.find? (fun e => e.1 = part)).map (·.2)

/-- Map delete (router.go:154). -/
def delB (b : List (Str × Router U)) (part : Str) : List (Str × Router U) :=
  b.filter (fun e => e.1 ≠ part)

/-- Map write `branches[part] = child` (router.go:113), and an update of the child in place. -/
def setB (b : List (Str × Router U)) (part : Str) (c : Router U) : List (Str × Router U) :=
  (part, c) :: delB b part

/-- router.go:53-65, the loop of `HasMatch`. -/
def hasMatchLoop : Nat → Str → Nat → Router U → Bool
  | 0, _, _, _ => false
  | fuel + 1, path, n, router =>
    let (part, i) := getSegment path n
    match getB router.branches part with
    | none => false
    | some node =>
      if node.url.isSome then true
      else match i with
        | none => false
        | some n' => hasMatchLoop fuel path n' node

/-- router.go:48-66 `HasMatch`. -/
def Router.hasMatch (router : Router U) (path : Str) : Bool :=
  if router.url.isSome then true
  else
    let (path, _) := normalizePath path
    hasMatchLoop (path.length + 1) path 0 router

/-- router.go:74-92, the loop of `Match`: gives the final `out` and `offset2`. -/
def matchLoop : Nat → Str → Nat → Router U → Option U → Nat → Option U × Nat
  | 0, _, _, _, out, offset2 => (out, offset2)
  | fuel + 1, path2, n, node, out, offset2 =>
    let (part, i) := getSegment path2 n
    match getB node.branches part with
    | none => (out, offset2)
    | some node =>
      let (out, offset2) := match node.url with
        | some u => (some u, match i with
            | none => path2.length
            | some i => i)
        | none => (out, offset2)
      match i with
      | none => (out, offset2)
      | some n => matchLoop fuel path2 n node out offset2

/-- router.go:68-97 `Match`; `(nil, "")` is `none`. -/
def Router.match_ (router : Router U) (path : Str) : Option (U × Str) :=
  let (path2, offset) := normalizePath path
  match matchLoop (path2.length + 1) path2 0 router router.url 0 with
  | (none, _) => none
  | (some u, offset2) => some (u, path.drop (offset + offset2))

/-- router.go:105-120, the loop of `Put` starting at `node`: follows and creates children. -/
def putLoop : Nat → Str → Nat → Router U → U → Router U
  | 0, _, _, node, _ => node
  | fuel + 1, path, n, node, url =>
    let (part, i) := getSegment path n
    let child := match getB node.branches part with
      | some c => c
      | none => Router.new
    let child := match i with
      | none => .node (some url) child.branches
      | some n' => putLoop fuel path n' child url
    .node node.url (setB node.branches part child)

/-- router.go:99-121 `Put`. -/
def Router.put (router : Router U) (path : Str) (url : U) : Router U :=
  let (path, _) := normalizePath path
  if path = [] then .node (some url) router.branches
  else putLoop (path.length + 1) path 0 router url

/-- router.go:132-163, the walk down and the pruning on the way back. `none`: the route is absent and
nothing changes (143). `some (node', dead)`: the subtree after the deletion, and whether the pruning
loop (151-162) goes on to delete this node from its parent. -/
def deleteLoop : Nat → Str → Nat → Router U → Option (Router U × Bool)
  | 0, _, _, _ => none
  | fuel + 1, path, n, node =>
    let (part, i) := getSegment path n
    match getB node.branches part with
    | none => none
    | some child =>
      let below := match i with
        | none =>
          let child : Router U := .node none child.branches   -- 149
          some (child, child.isLeaf)                            -- 150
        | some n' => deleteLoop fuel path n' child
      match below with
      | none => none
      | some (_, true) =>
        let parent : Router U := .node node.url (delB node.branches part)   -- 154
        some (parent, !(parent.url.isSome || !parent.isLeaf))               -- 159
      | some (child, false) => some (.node node.url (setB node.branches part child), false)

/-- router.go:123-164 `Delete`. -/
def Router.delete (router : Router U) (path : Str) : Router U :=
  let (path, _) := normalizePath path
  if path = [] then .node none router.branches
  else match deleteLoop (path.length + 1) path 0 router with
    | none => router
    | some (r, _) => r

/-- main.go:417-427 `singleJoiningSlash`. -/
def singleJoiningSlash (a b : Str) : Str :=
  let aslash : Bool := a.getLast? = some '/'
  let bslash : Bool := b.head? = some '/'
  if aslash && bslash then a ++ b.drop 1
  else if !aslash && !bslash then a ++ ['/'] ++ b
  else a ++ b

/-- Updates of a routing table (router.go:99-164). -/
inductive Op (U : Type) where
  | put (path : Str) (url : U)
  | delete (path : Str)

/-- One update (router.go:99-164). -/
def Router.apply (r : Router U) : Op U → Router U
  | .put p u => r.put p u
  | .delete p => r.delete p

/-- A new router after a history of updates (router.go:44-46, 99-164). -/
def Router.run (ops : List (Op U)) : Router U := ops.foldl Router.apply Router.new

end Verif.Router
