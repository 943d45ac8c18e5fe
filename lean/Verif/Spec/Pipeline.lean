import Verif.Spec.ZirWt
import Verif.Spec.ZirPlain
import Verif.Spec.Panics
import Verif.Spec.DeadCode
import Verif.Spec.NoTrunc
import Verif.Spec.Scope

/-
The functions for which the composition of all passes behind the propagation is proved correct.
-/

namespace Zok
variable {p : ℕ} {Z : Type}

mutual
/-- Field elements are unpacked into at least as many bits as the modulus has. -/
def ZStmt.WideUnpack : ZStmt (ZMod p) Z → Prop
  | .multiDef xs embed _ _ => embed = .unpack → Fld.requiredBits p ≤ xs.length
  | .ifElse _ t e => ZStmt.WideUnpackL t ∧ ZStmt.WideUnpackL e
  | _ => True
/-- Lists of such statements. -/
def ZStmt.WideUnpackL : List (ZStmt (ZMod p) Z) → Prop
  | [] => True
  | s :: ss => s.WideUnpack ∧ ZStmt.WideUnpackL ss
end

/-- Functions without assembly blocks that are well-typed (`WtFun`), shift and subtract only expressions of full range
(`plainFun`), have no variable in an alternative which the consequence assigns, return once, at the end, and do not cast field elements to booleans
without a check. All conditions are on the syntax. -/
structure Compilable (f : ZFun (ZMod p) Z) : Prop where
  typed : WtFun f
  plain : plainFun f = true
  powers : ZStmt.ExtractableL f.body
  apart : ZStmt.BranchesApartL (fun _ => []) f.body
  ret : SingleReturn f
  noAsm : ZStmt.NoAsmL f.body
  noCast : ZStmt.NoCastL f.body

/-- On the arguments `ins` an assertion of the function fails: the statements in front of it are executed, and then its condition is false. -/
def AssertFails [Fact p.Prime] (O : Oracle p Z) (f : ZFun (ZMod p) Z) (ins : List (ZMod p)) : Prop :=
  ∃ vs pre e err post σ, decodeArgs f.params ins = some vs ∧ f.body = pre ++ .assertion e err :: post ∧
    ExecL O (initState f vs) pre (.ok σ) ∧ evalB σ.env e = .ok false

end Zok
