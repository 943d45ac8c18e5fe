import Verif.Spec.ZirExec

/-
Specification: programs that leave no choice to the prover.
-/

namespace Zok
variable {F Z : Type}

mutual
/-- No assembly blocks and no bit decompositions of field elements. -/
def ZStmt.OracleFree : ZStmt F Z → Prop
  | .assembly _ => False
  | .multiDef _ embed _ _ => embed ≠ .unpack
  | .ifElse _ t e => ZStmt.OracleFreeL t ∧ ZStmt.OracleFreeL e
  | _ => True
/-- Lists of such statements. -/
def ZStmt.OracleFreeL : List (ZStmt F Z) → Prop
  | [] => True
  | s :: ss => s.OracleFree ∧ ZStmt.OracleFreeL ss
end

end Zok
