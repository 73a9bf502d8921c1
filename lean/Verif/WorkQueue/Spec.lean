import Verif.WorkQueue.Model
/-
Specification of the work queue, in terms of the log of observable events only (newest event
first). Nothing here mentions the queue's state.
-/
namespace Verif.WorkQueue
variable {α : Type} [DecidableEq α]

/-- Some consumer received `x` and nobody has marked it done since. -/
def held (x : α) : List (Ev α) → Bool
  | [] => false
  | .got _ y :: past => if y = x then true else held x past
  | .done y :: past => if y = x then false else held x past
  | _ :: past => held x past

/-- `x` was put (at once or by a delayed put) and has not been delivered since. -/
def pending (x : α) : List (Ev α) → Bool
  | [] => false
  | .put y :: past => if y = x then true else pending x past
  | .due y :: past => if y = x then true else pending x past
  | .got _ y :: past => if y = x then false else pending x past
  | _ :: past => pending x past

/-- Items that are put, undelivered and not held, in the order in which they became so. An item
becomes ready when it is put while not pending and not held, or when it is marked done while
pending. -/
def readyOrder : List (Ev α) → List α
  | [] => []
  | .put x :: past =>
    if pending x past || held x past then readyOrder past else readyOrder past ++ [x]
  | .due x :: past =>
    if pending x past || held x past then readyOrder past else readyOrder past ++ [x]
  | .done x :: past => if pending x past then readyOrder past ++ [x] else readyOrder past
  | .got _ x :: past => (readyOrder past).erase x
  | _ :: past => readyOrder past

/-- Consumers mark done only what is held. -/
def Disciplined (log : List (Ev α)) : Prop :=
  ∀ later x earlier, log = later ++ .done x :: earlier → held x earlier = true

/-- Times requested for delayed puts of `x` that were not carried out yet. -/
def outstanding (x : α) : List (Ev α) → List Rat
  | [] => []
  | .requested y w :: past => if y = x then w :: outstanding x past else outstanding x past
  | .due y :: past => if y = x then [] else outstanding x past
  | _ :: past => outstanding x past

/-- `m` is the least element of `l`, `none` if `l` is empty. -/
def IsMin (l : List Rat) : Option Rat → Prop
  | none => l = []
  | some m => m ∈ l ∧ ∀ w ∈ l, m ≤ w

/-- Failures of `x` since its last success (newest operation first). -/
def failuresSince (x : α) : List (Bool × α) → Nat
  | [] => 0
  | (true, y) :: past => if y = x then failuresSince x past + 1 else failuresSince x past
  | (false, y) :: past => if y = x then 0 else failuresSince x past

end Verif.WorkQueue
