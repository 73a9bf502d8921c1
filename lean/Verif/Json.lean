/-
The values a JSON request body decodes to in Python (`request.json()` in
dask-gateway-server/dask_gateway_server/routes.py:120, 194, 234, 273; `json.loads` accepts `NaN`,
`Infinity` and `-Infinity`).

Strings are lists of characters. A finite float is its exact rational value (so the two float
zeros are one value here). An object is an association list of which the first entry for a key
counts (`json.loads` keeps the last duplicate; the order of the list is not the textual order).
-/
namespace Verif

/-- Python's `str`, as in routes.py:120: a list of characters. -/
abbrev Str := List Char

/-- A Python number that is not a `bool`: an `int`, or a `float` (finite, infinite or NaN)
(routes.py:120, 194, 234). -/
inductive Num where
  | int (i : Int)
  | fin (q : Rat)
  | pinf
  | ninf
  | nan
  deriving DecidableEq, Repr

/-- What `json.loads` returns (routes.py:120, 194, 234, 273). -/
inductive Json where
  | null
  | bool (b : Bool)
  | num (n : Num)
  | str (s : Str)
  | arr (l : List Json)
  | obj (l : List (Str × Json))

mutual
/-- Equality of JSON values as data (`1`, `1.0` and `true` differ) (routes.py:194-262). -/
def Json.decEq : (a b : Json) → Decidable (a = b)
  | .null, b => match b with
    | .null => isTrue rfl
    | .bool _ | .num _ | .str _ | .arr _ | .obj _ => isFalse (by simp)
  | .bool x, b => match b with
    | .bool y => decidable_of_iff (x = y) (by simp)
    | .null | .num _ | .str _ | .arr _ | .obj _ => isFalse (by simp)
  | .num x, b => match b with
    | .num y => decidable_of_iff (x = y) (by simp)
    | .null | .bool _ | .str _ | .arr _ | .obj _ => isFalse (by simp)
  | .str x, b => match b with
    | .str y => decidable_of_iff (x = y) (by simp)
    | .null | .bool _ | .num _ | .arr _ | .obj _ => isFalse (by simp)
  | .arr x, b => match b with
    | .arr y => match Json.decEqL x y with
      | isTrue h => isTrue (by rw [h])
      | isFalse h => isFalse (by simpa using h)
    | .null | .bool _ | .num _ | .str _ | .obj _ => isFalse (by simp)
  | .obj x, b => match b with
    | .obj y => match Json.decEqO x y with
      | isTrue h => isTrue (by rw [h])
      | isFalse h => isFalse (by simpa using h)
    | .null | .bool _ | .num _ | .str _ | .arr _ => isFalse (by simp)
/-- Equality of lists of JSON values (routes.py:194-262). -/
def Json.decEqL : (a b : List Json) → Decidable (a = b)
  | [], [] => isTrue rfl
  | [], _ :: _ => isFalse (by simp)
  | _ :: _, [] => isFalse (by simp)
  | x :: a, y :: b => match Json.decEq x y, Json.decEqL a b with
    | isTrue h, isTrue g => isTrue (by rw [h, g])
    | isFalse h, _ => isFalse (by simp [h])
    | _, isFalse h => isFalse (by simp [h])
/-- Equality of the entries of objects (routes.py:194-262). -/
def Json.decEqO : (a b : List (Str × Json)) → Decidable (a = b)
  | [], [] => isTrue rfl
  | [], _ :: _ => isFalse (by simp)
  | _ :: _, [] => isFalse (by simp)
  | (k, x) :: a, (l, y) :: b =>
    match (inferInstance : Decidable (k = l)), Json.decEq x y, Json.decEqO a b with
    | isTrue e, isTrue h, isTrue g => isTrue (by rw [e, h, g])
    | isFalse h, _, _ => isFalse (by simp [h])
    | _, isFalse h, _ => isFalse (by simp [h])
    | _, _, isFalse h => isFalse (by simp [h])
end

instance : DecidableEq Json := Json.decEq

/-- `d.get(k)` on a dictionary (routes.py:121, 195, 235-237). -/
def lookup {β : Type} (d : List (Str × β)) (k : Str) : Option β :=
  (d.find? (fun e => e.1 = k)).map (·.2)

/-- `a < b` between Python numbers: exact between `int` and `float`, false with NaN (routes.py:197-199, 240-252). -/
def Num.lt : Num → Num → Bool
  | .nan, _ | _, .nan => false
  | .pinf, _ => false
  | .ninf, .ninf => false
  | .ninf, _ => true
  | _, .pinf => true
  | _, .ninf => false
  | .int a, .int b => decide (a < b)
  | .int a, .fin b => decide ((a : Rat) < b)
  | .fin a, .int b => decide (a < (b : Rat))
  | .fin a, .fin b => decide (a < b)

/-- The number a JSON value is in a Python comparison: `True` is 1 and `False` is 0; a comparison of
anything else with a number raises `TypeError` (`none`) (routes.py:197-199, 240-252). -/
def Json.asNum : Json → Option Num
  | .bool b => some (.int (if b then 1 else 0))
  | .num n => some n
  | _ => none

deriving instance DecidableEq for Except

end Verif
