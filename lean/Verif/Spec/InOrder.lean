import Verif.Spec.ConditionRedefiner

/-
Specification: assignments which do not depend on the order in which the components of the assigned part are computed.
-/

namespace Zok.Typed
open Abi
variable {F : Type}

/-- The right side does not read the assigned variable, or all indices of the assignee are literals and the assigned part has at most one component. Assignments to
whole variables behind the conversion to static single assignment form satisfy the former. -/
def TStmt.InOrder : TStmt F → Prop
  | .definition a e => a.root ∉ e.vars ∨ (a.ConstantIndices ∧ ∃ t c, a.ty = some t ∧ primCount t = some c ∧ c ≤ 1)
  | _ => True

end Zok.Typed
