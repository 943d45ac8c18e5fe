import Mathlib.Algebra.Field.Basic
import Mathlib.Algebra.BigOperators.Group.List.Basic
import Verif.Model.LinComb

/-
Specification: what combinations of variables mean under an assignment of field elements to all variables.
-/

namespace Zok
variable {F : Type _} [Field F]

/-- A total assignment of field elements to variables. -/
abbrev Assignment (F : Type _) := Variable → F

/-- The value of a linear combination: the sum of `coefficient * value`. -/
def LinComb.val (ρ : Assignment F) (l : LinComb F) : F := (l.map (fun t => t.2 * ρ t.1)).sum

/-- The total coefficient a linear combination gives to a variable. -/
def LinComb.coeff (l : LinComb F) (x : Variable) : F :=
  (l.map (fun t => if t.1 = x then t.2 else 0)).sum

/-- The value of a quadratic combination. -/
def QuadComb.val (ρ : Assignment F) (q : QuadComb F) : F := q.left.val ρ * q.right.val ρ

/-- An assignment is standard when the distinguished variable `~one` is one. -/
def OneIsOne (ρ : Assignment F) : Prop := ρ Variable.one = 1

/-- `l` mentions the variable `x`. -/
def LinComb.Mentions (l : LinComb F) (x : Variable) : Prop := x ∈ l.map Prod.fst

end Zok
