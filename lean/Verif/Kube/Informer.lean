import Verif.Dict
/-
Model of `Informer` in dask-gateway-server/dask_gateway_server/backends/kubernetes/utils.py:69-205.

Objects are a namespace, a name and an unanalysed body. The callbacks are recorded, not run: what they
raise is caught (utils.py:102-103, 109-110, 121-122, 127-128).
-/
namespace Verif.Kube

/-- A Kubernetes object (utils.py:82-83 reads the namespace and name). -/
structure KObj (ω : Type) where
  ns : Str
  name : Str
  body : ω
  deriving DecidableEq

/-- utils.py:81-84 `get_key`. -/
def KObj.key {ω : Type} (o : KObj ω) : Str := o.ns ++ '.' :: o.name

/-- A call of `on_update` or `on_delete` (utils.py:101, 108, 120, 126). -/
inductive Call (ω : Type) where
  | update (obj : KObj ω) (old : Option (KObj ω))
  | delete (obj : KObj ω)
  deriving DecidableEq

/-- The type of a watch event (utils.py:117, 123, 174). -/
inductive EvType where
  | added
  | modified
  | deleted
  | error
  | other
  deriving DecidableEq

variable {ω : Type}

/-- `cache.pop(key)` (utils.py:99, 124). -/
def pop (c : List (Str × KObj ω)) (k : Str) : List (Str × KObj ω) := c.filter (fun e => e.1 ≠ k)

/-- utils.py:98-103 the deletions of a listing. -/
def dropAll (c : List (Str × KObj ω)) : List Str → List (Str × KObj ω) × List (Call ω)
  | [] => (c, [])
  | k :: ks =>
    match lookup c k with
    | none => dropAll c ks
    | some o =>
      let (c', calls) := dropAll (pop c k) ks
      (c', .delete o :: calls)

/-- utils.py:104-110 the updates of a listing. -/
def putAll (c : List (Str × KObj ω)) : List (Str × KObj ω) → List (Str × KObj ω) × List (Call ω)
  | [] => (c, [])
  | (k, o) :: l =>
    let (c', calls) := putAll (Dict.set c k o) l
    (c', .update o (lookup c k) :: calls)

/-- utils.py:87 `obj_map`. -/
def objMap (objs : List (KObj ω)) : List (Str × KObj ω) :=
  Dict.ofList (objs.map (fun o => (o.key, o)))

/-- utils.py:86-110 `handle_initial`; `order` is the order in which the set of deleted keys is
iterated. -/
def handleInitial (order : List Str → List Str) (c : List (Str × KObj ω)) (objs : List (KObj ω)) :
    List (Str × KObj ω) × List (Call ω) :=
  let deleted := (Dict.keys c).filter (fun k => decide (k ∉ Dict.keys (objMap objs)))
  let (c1, calls1) := dropAll c (order deleted)
  let (c2, calls2) := putAll c1 (objMap objs)
  (c2, calls1 ++ calls2)

/-- utils.py:112-128 `handle`. -/
def handle (c : List (Str × KObj ω)) (o : KObj ω) : EvType → List (Str × KObj ω) × List (Call ω)
  | .added | .modified => (Dict.set c o.key o, [.update o (lookup c o.key)])
  | .deleted => (pop c o.key, [.delete o])
  | _ => (c, [])

/-- Where `run` waits (utils.py:149, 171). -/
inductive Mode where
  | listing
  | watching
  deriving DecidableEq

/-- The state of an informer: its cache and `res_ver` (utils.py:132, 161). -/
structure Informer (ω : Type) where
  mode : Mode
  cache : List (Str × KObj ω)
  version : Nat

/-- What `run` receives from the API server (utils.py:149-152, 171, 201). -/
inductive Input (ω : Type) where
  | listed (objs : List (KObj ω)) (version : Nat)
  | failed
  | event (type : EvType) (obj : KObj ω) (version : Option Nat)
  | timeout

/-- utils.py:130-135 `start`. -/
def Informer.start : Informer ω := { mode := .listing, cache := [], version := 0 }

/-- utils.py:142-205 one step of `run`, with the callbacks it makes: a listing, an event, the end of a
watch, or an exception. An input that does not fit the mode cannot occur and is ignored. -/
def Informer.step (order : List Str → List Str) (s : Informer ω) :
    Input ω → Informer ω × List (Call ω)
  | .listed objs version =>
    match s.mode with
    | .listing =>
      let (c, calls) := handleInitial order s.cache objs
      ({ mode := .watching, cache := c, version }, calls)
    | .watching => (s, [])
  | .failed => ({ s with mode := .listing }, [])
  | .event type obj version =>
    match s.mode with
    | .watching =>
      if type = .error then ({ s with mode := .listing }, [])
      else
        let (c, calls) := handle s.cache obj type
        ({ s with cache := c, version := version.getD s.version }, calls)
    | .listing => (s, [])
  | .timeout => (s, [])

end Verif.Kube
