import Verif.Dict
/-
Model of `merge_json_objects` in
dask-gateway-server/dask_gateway_server/backends/kubernetes/utils.py:208-240, on Python objects with
identities, so that one can tell what is copied and what is changed in place.
-/
namespace Verif.Kube

/-- A JSON document as Python objects: lists and dictionaries have an identity (utils.py:208-240). -/
inductive Obj where
  | null
  | bool (b : Bool)
  | num (n : Num)
  | str (s : Str)
  | list (id : Nat) (l : List Obj)
  | dict (id : Nat) (l : List (Str × Obj))

/-- The outcome of a step: the result, the next unused identity, and the identities of the objects
that were changed in place (utils.py:208-240). -/
structure Run (α : Type) where
  val : α
  next : Nat
  writes : List Nat

mutual
/-- utils.py:225-240 `merge_json_objects`: `a` (with identity `ida`) itself if `b` is empty, else a
shallow copy that is then changed. -/
def mergeDict (ida : Nat) (a : List (Str × Obj)) : List (Str × Obj) → Nat → Run Obj
  | [], n => { val := .dict ida a, next := n, writes := [] }
  | (k, bv) :: b, n =>
    let v := mergeAt (lookup a k) bv (n + 1)
    let r := mergeLoop n (Dict.set a k v.val) b v.next
    { val := .dict n r.val, next := r.next, writes := v.writes ++ n :: r.writes }
/-- utils.py:228-239 the loop on the copy, whose identity is `self`. -/
def mergeLoop (self : Nat) (a : List (Str × Obj)) :
    List (Str × Obj) → Nat → Run (List (Str × Obj))
  | [], n => { val := a, next := n, writes := [] }
  | (k, bv) :: b, n =>
    let v := mergeAt (lookup a k) bv n
    let r := mergeLoop self (Dict.set a k v.val) b v.next
    { val := r.val, next := r.next, writes := v.writes ++ self :: r.writes }
/-- utils.py:229-239 the value to store under a key. -/
def mergeAt (av : Option Obj) : Obj → Nat → Run Obj
  | .dict ib b, n =>
    match av with
    | some (.dict ia a) => mergeDict ia a b n
    | _ => { val := .dict ib b, next := n, writes := [] }
  | .list ib b, n =>
    match av with
    | some (.list _ a) => { val := .list n (a ++ b), next := n + 1, writes := [] }
    | _ => { val := .list ib b, next := n, writes := [] }
  | bv, n => { val := bv, next := n, writes := [] }
end

end Verif.Kube
