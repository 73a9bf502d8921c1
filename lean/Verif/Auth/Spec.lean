import Verif.Auth.Model
/-! What the properties of authentication talk about. -/
namespace Verif.Auth

/-- The `i`-th operation of the history handed cookie `k` to `u` at time `t`. -/
def Gave (m : Rat) (ops : List Op) (i : Nat) (u : User) (t : Rat) (k : Nat) : Prop :=
  ops[i]? = some (.issue u t) ∧ ((Cache.empty m).run ops).2[i]? = some (.gave k)

/-- Operation `i` of the history is the first that handed out cookie `k`. -/
def FirstGave (m : Rat) (ops : List Op) (i : Nat) (u : User) (t : Rat) (k : Nat) : Prop :=
  Gave m ops i u t k ∧ ∀ j < i, ∀ u' t', ¬ Gave m ops j u' t' k

/-- After the history `ops`, a request that presents cookie `k` at time `now` is handled for `u`
without further authentication (for nobody if `none`). -/
def ResolvesTo (m : Rat) (ops : List Op) (k : Nat) (now : Rat) (u : Option User) : Prop :=
  ((Cache.empty m).run (ops ++ [.present k now])).2.getLast? = some (.who u)

/-- The kinds of principal a JupyterHub has. -/
def HubKind (kind : Str) : Prop := kind = "user".toList ∨ kind = "service".toList

/-- Every character is ASCII. -/
def IsAscii (s : Str) : Prop := ∀ x ∈ s, x.toNat < 128

end Verif.Auth
