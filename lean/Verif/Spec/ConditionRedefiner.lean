import Verif.Spec.VariableWrite

/-
Specification: the variables of statements and functions.
-/

namespace Zok.Typed
open Abi
variable {F : Type}

/-- The variables of an assignee: the assigned one, and those of the indices. -/
def TAssignee.vars (a : TAssignee F) : List TId := a.root :: varsL a.indices

/-- The variables of a statement. -/
def TStmt.vars : TStmt F → List TId
  | .ret e | .assertion e _ => e.vars
  | .definition a e => e.vars ++ a.vars
  | .embed a _ _ args => varsL args ++ a.vars
  | .log es => varsL es

/-- The variables of a function: parameters and those of the statements. -/
def TFun.vars (f : TFun F) : List TId := f.params.map TParam.id ++ f.body.flatMap TStmt.vars

/-- Results of embedded functions are assigned to variables or to parts of them with literal indices. -/
def ConstantCalls (body : List (TStmt F)) : Prop := ∀ a f g args, .embed a f g args ∈ body → a.ConstantIndices

/-- No variable in the list is one of the new ones. -/
def NoCid (cid : ℕ → TId) (xs : List TId) : Prop := ∀ x ∈ xs, ∀ k, x ≠ cid k

mutual
/-- The conditions of all conditionals in an expression are literals or variables. -/
def TExpr.SimpleConditions : TExpr F → Prop
  | .fval _ | .bval _ | .uval _ _ | .removed _ | .ident _ _ => True
  | .fbin _ l r | .fubin _ l r | .ubin _ _ l r | .bbin _ l r | .fcmp _ l r | .ucmp _ l r | .eq l r => l.SimpleConditions ∧ r.SimpleConditions
  | .fneg e | .fpos e | .unot _ e | .uneg _ e | .upos _ e | .bnot e => e.SimpleConditions
  | .cond _ c a b => ((∃ b, c = .bval b) ∨ ∃ x t, c = .ident x t) ∧ a.SimpleConditions ∧ b.SimpleConditions
  | .select _ a i => a.SimpleConditions ∧ i.SimpleConditions
  | .member _ e _ | .element _ e _ => e.SimpleConditions
  | .array _ _ es => SimpleConditionsS es
  | .slice _ _ a lo hi => a.SimpleConditions ∧ lo.SimpleConditions ∧ hi.SimpleConditions
  | .repeat_ _ _ e c => e.SimpleConditions ∧ c.SimpleConditions
  | .struct _ es | .tuple _ es => SimpleConditionsL es
/-- For a list of expressions. -/
def SimpleConditionsL : List (TExpr F) → Prop
  | [] => True
  | e :: es => e.SimpleConditions ∧ SimpleConditionsL es
/-- For the elements of an array. -/
def SimpleConditionsS : List (TSpread F) → Prop
  | [] => True
  | .expr e :: es => e.SimpleConditions ∧ SimpleConditionsS es
  | .spread e :: es => e.SimpleConditions ∧ SimpleConditionsS es
end

/-- For all expressions of a statement. -/
def TStmt.SimpleConditions : TStmt F → Prop
  | .ret e | .assertion e _ => e.SimpleConditions
  | .definition a e => e.SimpleConditions ∧ SimpleConditionsL a.indices
  | .embed a _ _ args => SimpleConditionsL args ∧ SimpleConditionsL a.indices
  | .log es => SimpleConditionsL es

end Zok.Typed
