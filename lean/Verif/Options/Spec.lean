import Verif.Options.Model
/-! Vocabulary for properties C41-C43 and C67. -/
namespace Verif.Options

/-- The fields the constructors of the server's field classes can return. -/
inductive Made {V : Type} : Field V → Prop where
  | string {n d l t f} : mkString n d l t = .ok f → Made f
  | bool {n d l t f} : mkBool n d l t = .ok f → Made f
  | integer {n d lo hi l t f} : mkInteger n d lo hi l t = .ok f → Made f
  | float {n d lo hi l t f} : mkFloat n d lo hi l t = .ok f → Made f
  | select {n o d l t f} : mkSelect n o d l t = .ok f → Made f
  | mapping {n d l t f} : mkMapping n d l t = .ok f → Made f

/-- The order of the extended numbers; NaN is not comparable with anything. -/
def _root_.Verif.Num.Le : Num → Num → Prop
  | .nan, _ => False
  | _, .nan => False
  | .ninf, _ => True
  | _, .pinf => True
  | .int a, .int b => a ≤ b
  | .int a, .fin b => (a : Rat) ≤ b
  | .fin a, .int b => a ≤ (b : Rat)
  | .fin a, .fin b => a ≤ b
  | .pinf, _ => False
  | _, .ninf => False

/-- `v` is of the type a field of this kind declares. -/
def HasType {V : Type} : Kind V → Json → Prop
  | .string, v => ∃ s, v = .str s
  | .bool, v => ∃ b, v = .bool b
  | .integer _ _, v => ∃ i, v = .num (.int i)
  | .float _ _, v => ∃ n, v = .num n ∧ ∀ i, n ≠ .int i
  | .select options, v => ∃ s, v = .str s ∧ s ∈ options.map (·.1)
  | .mapping, v => ∃ d, v = .obj d

/-- `v` is a number and not below `lo` (no bound if `null`). -/
def AtLeast (lo v : Json) : Prop :=
  ∃ n, v.asNum = some n ∧ (lo = .null ∨ ∃ m, lo.asNum = some m ∧ m.Le n)

/-- `v` is a number and not above `hi` (no bound if `null`). -/
def AtMost (hi v : Json) : Prop :=
  ∃ n, v.asNum = some n ∧ (hi = .null ∨ ∃ m, hi.asNum = some m ∧ n.Le m)

/-- `v` is within the bounds a field of this kind declares. -/
def InBounds {V : Type} : Kind V → Json → Prop
  | .integer lo hi, v => AtLeast lo v ∧ AtMost hi v
  | .float lo hi, v => AtLeast lo v ∧ AtMost hi v
  | _, _ => True

/-- A field whose bounds, if any, are not NaN. -/
def BoundsProper {V : Type} : Kind V → Prop
  | .integer lo hi => lo ≠ .num .nan ∧ hi ≠ .num .nan
  | .float lo hi => lo ≠ .num .nan ∧ hi ≠ .num .nan
  | _ => True

/-- The fields have different names. -/
def Distinct {V : Type} (fields : List (Field V)) : Prop := (fields.map Field.name).Nodup

end Verif.Options
