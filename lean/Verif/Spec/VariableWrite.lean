import Verif.Spec.Replaces

/-
Specification: notions for assignments to parts of variables.
-/

namespace Zok.Typed
open Abi
variable {F : Type}

/-- The indices of an assignee. -/
def TAssignee.indices : TAssignee F → List (TExpr F)
  | .ident _ _ => []
  | .select a i => a.indices ++ [i]
  | .member a _ | .element a _ => a.indices

/-- The indices of an assignee are literals. -/
def TAssignee.ConstantIndices (a : TAssignee F) : Prop := ∀ i ∈ a.indices, ∃ w k, i = .uval w k

/-- `ord` enumerates the elements of a set given by a list of them, in any order. -/
def Enumerates (ord : List (TStmt F) → List (TStmt F)) : Prop := ∀ l s, s ∈ ord l ↔ s ∈ l

end Zok.Typed
