import Verif.Model.DeadCode
import Verif.Spec.ZirExec

/-
The input of the elimination of dead code: no variable is mentioned before it is assigned.
-/

namespace Zok
open Dce
variable {F Z : Type}

section
variable (hm : Z → List ZId)

/-- The variables assigned by a statement of an assembly block. -/
def ZAsm.assigns : ZAsm F Z → List ZId
  | .assignment xs _ _ => xs
  | .constraint _ _ _ => []

/-- The variables which appear in a statement of an assembly block; `hm` are those of a hint. -/
def ZAsm.mentions : ZAsm F Z → List ZId
  | .assignment xs f args => xs ++ hm f ++ args
  | .constraint l r _ => idsF l ++ idsF r

mutual
/-- The variables assigned by a statement. -/
def ZStmt.assigns : ZStmt F Z → List ZId
  | .definition x _ => [x]
  | .multiDef xs _ _ _ => xs
  | .ifElse _ t e => ZStmt.assignsL t ++ ZStmt.assignsL e
  | .assembly ss => ss.flatMap ZAsm.assigns
  | .ret _ | .assertion _ _ | .log _ => []
/-- The variables assigned by a list of statements. -/
def ZStmt.assignsL : List (ZStmt F Z) → List ZId
  | [] => []
  | s :: ss => s.assigns ++ ZStmt.assignsL ss
end

mutual
/-- The variables which appear in a statement. -/
def ZStmt.mentions : ZStmt F Z → List ZId
  | .ret es => idsZs es
  | .definition x e => x :: idsZ e
  | .ifElse c t e => idsB c ++ ZStmt.mentionsL t ++ ZStmt.mentionsL e
  | .assertion e _ => idsB e
  | .multiDef xs _ _ args => xs ++ idsZs args
  | .log es => idsZs es.flatten
  | .assembly ss => ss.flatMap (ZAsm.mentions hm)
/-- The variables which appear in a list of statements. -/
def ZStmt.mentionsL : List (ZStmt F Z) → List ZId
  | [] => []
  | s :: ss => s.mentions ++ ZStmt.mentionsL ss
end

mutual
/-- A statement assigns no variable it reads; in the branches of a statement no variable is mentioned before it is assigned, the
alternative does not mention what the consequence assigns, nor the condition what the branches assign. -/
def ZStmt.AssignedFirst : ZStmt F Z → Prop
  | .definition x e => x ∉ idsZ e
  | .multiDef xs _ _ args => ∀ x ∈ xs, x ∉ idsZs args
  | .ifElse c t e => ZStmt.AssignedFirstL t ∧ ZStmt.AssignedFirstL e ∧ (∀ x ∈ ZStmt.assignsL t, x ∉ ZStmt.mentionsL hm e) ∧
      ∀ x ∈ ZStmt.assignsL t ++ ZStmt.assignsL e, x ∉ idsB c
  | _ => True
/-- No variable is mentioned before it is assigned. -/
def ZStmt.AssignedFirstL : List (ZStmt F Z) → Prop
  | [] => True
  | s :: ss => s.AssignedFirst ∧ ZStmt.AssignedFirstL ss ∧ ∀ x ∈ ZStmt.assignsL ss, x ∉ s.mentions hm
end

mutual
/-- In a statement with two branches, the alternative does not mention what the consequence assigns. -/
def ZStmt.BranchesApart : ZStmt F Z → Prop
  | .ifElse _ t e => ZStmt.BranchesApartL t ∧ ZStmt.BranchesApartL e ∧ ∀ x ∈ ZStmt.assignsL t, x ∉ ZStmt.mentionsL hm e
  | _ => True
/-- In statements with two branches, the alternative does not mention what the consequence assigns. -/
def ZStmt.BranchesApartL : List (ZStmt F Z) → Prop
  | [] => True
  | s :: ss => s.BranchesApart ∧ ZStmt.BranchesApartL ss
end
end

/-- What the elimination does to hints: it does not change their meaning, and forgets no variable that is used. -/
structure HintsKept {p : ℕ} (O : Oracle p Z) (hd : Z → Used → Z × Used) : Prop where
  meaning : ∀ z u, O.hint (hd z u).1 = O.hint z
  grows : ∀ z (u : Used) x, u x = true → (hd z u).2 x = true

mutual
/-- The hints of the statement use all their arguments. -/
def ZStmt.ArgsUsed (hd : Z → Used → Z × Used) : ZStmt F Z → Prop
  | .ifElse _ t e => ZStmt.ArgsUsedL hd t ∧ ZStmt.ArgsUsedL hd e
  | .assembly ss => ∀ xs f args, ZAsm.assignment xs f args ∈ ss → ∀ u, ∀ x ∈ args, (hd f u).2 x = true
  | _ => True
/-- The hints of the statements use all their arguments. -/
def ZStmt.ArgsUsedL (hd : Z → Used → Z × Used) : List (ZStmt F Z) → Prop
  | [] => True
  | s :: ss => s.ArgsUsed hd ∧ ZStmt.ArgsUsedL hd ss
end

/-- Calls of embedded functions with arguments of the right shape; the bit decompositions they ask for exist. -/
inductive CallOk {p : ℕ} (O : Oracle p Z) : List ZId → Embed → List ℕ → List (ZExpr (ZMod p)) → Prop
  | cast {x g e} : CallOk O [x] .fieldToBoolUnsafe g [.field e]
  | toBits {xs g} {e : UExpr (ZMod p)} : xs.length = e.width → CallOk O xs (.uToBits e.width) g [.uint e]
  | fromBits {x g} {es : List (BExpr (ZMod p))} : CallOk O [x] (.uFromBits es.length) g (es.map .bool)
  | bitArrayLe {x} {as bs : List (BExpr (ZMod p))} : as.length = bs.length →
      CallOk O [x] .bitArrayLe [as.length] (as.map .bool ++ bs.map .bool)
  | unpack {xs e} : (∀ v : ZMod p, ∃ bl : List Bool, bl.length = xs.length ∧ O.unpack xs.length v bl) →
      CallOk O xs .unpack [xs.length] [.field e]

mutual
/-- The calls in a statement are well-formed. -/
def ZStmt.CallsOk {p : ℕ} (O : Oracle p Z) : ZStmt (ZMod p) Z → Prop
  | .multiDef xs embed g args => CallOk O xs embed g args
  | .ifElse _ t e => ZStmt.CallsOkL O t ∧ ZStmt.CallsOkL O e
  | _ => True
/-- The calls in a list of statements are well-formed. -/
def ZStmt.CallsOkL {p : ℕ} (O : Oracle p Z) : List (ZStmt (ZMod p) Z) → Prop
  | [] => True
  | s :: ss => s.CallsOk O ∧ ZStmt.CallsOkL O ss
end

section
variable {p : ℕ} [Fact p.Prime]
mutual
/-- A statement fails, but not because the right side of a definition cannot be evaluated. -/
inductive FailsOutside (O : Oracle p Z) : ZState p → ZStmt (ZMod p) Z → Fault → Prop
  | ret {σ es f} : evalZs σ.env es = .error f → FailsOutside O σ (.ret es) f
  | condition {σ c t e f} : evalB σ.env c = .error f → FailsOutside O σ (.ifElse c t e) f
  | consequence {σ c t e b f} : evalB σ.env c = .ok b → FailsOutsideL O σ t f → FailsOutside O σ (.ifElse c t e) f
  | alternative {σ c t e b σ' f} : evalB σ.env c = .ok b → ExecL O σ t (.ok σ') → FailsOutsideL O σ' e f →
      FailsOutside O σ (.ifElse c t e) f
  | assertFailed {σ e err} : evalB σ.env e = .ok false → FailsOutside O σ (.assertion e err) .assertionFailed
  | assertFault {σ e err c f} : Conjunct c e → evalB σ.env c = .error f → FailsOutside O σ (.assertion e err) f
  | log {σ es f} : evalZs σ.env es.flatten = .error f → FailsOutside O σ (.log es) f
  | assembly {σ ss f} : ExecAsms O σ ss (.error f) → FailsOutside O σ (.assembly ss) f
/-- A list of statements fails at such a statement. -/
inductive FailsOutsideL (O : Oracle p Z) : ZState p → List (ZStmt (ZMod p) Z) → Fault → Prop
  | head {σ s ss f} : FailsOutside O σ s f → FailsOutsideL O σ (s :: ss) f
  | tail {σ s ss σ' f} : Exec O σ s (.ok σ') → FailsOutsideL O σ' ss f → FailsOutsideL O σ (s :: ss) f
end
end

end Zok
