import Verif.Spec.VariableWrite

/-
Specification: the expressions of a program, and what the checks of shifts, comparisons with constants, and indices accept.
-/

namespace Zok.Typed
open Abi
variable {F : Type}

mutual
/-- All subexpressions of an expression, with itself; `deep` tells whether those below of a select are included. -/
def TExpr.subs (deep : Bool) : TExpr F → List (TExpr F)
  | .fbin op l r => .fbin op l r :: (l.subs deep ++ r.subs deep)
  | .fubin op l r => .fubin op l r :: (l.subs deep ++ r.subs deep)
  | .fneg e => .fneg e :: e.subs deep
  | .fpos e => .fpos e :: e.subs deep
  | .ubin w op l r => .ubin w op l r :: (l.subs deep ++ r.subs deep)
  | .unot w e => .unot w e :: e.subs deep
  | .uneg w e => .uneg w e :: e.subs deep
  | .upos w e => .upos w e :: e.subs deep
  | .bbin op l r => .bbin op l r :: (l.subs deep ++ r.subs deep)
  | .bnot e => .bnot e :: e.subs deep
  | .fcmp op l r => .fcmp op l r :: (l.subs deep ++ r.subs deep)
  | .ucmp op l r => .ucmp op l r :: (l.subs deep ++ r.subs deep)
  | .eq l r => .eq l r :: (l.subs deep ++ r.subs deep)
  | .cond t c a b => .cond t c a b :: (c.subs deep ++ a.subs deep ++ b.subs deep)
  | .select t a i => .select t a i :: (if deep then a.subs deep ++ i.subs deep else [])
  | .member t e m => .member t e m :: e.subs deep
  | .element t e i => .element t e i :: e.subs deep
  | .array t n es => .array t n es :: subsS deep es
  | .slice t n a lo hi => .slice t n a lo hi :: (a.subs deep ++ lo.subs deep ++ hi.subs deep)
  | .repeat_ t n e c => .repeat_ t n e c :: (e.subs deep ++ c.subs deep)
  | .struct ms es => .struct ms es :: subsL deep es
  | .tuple ts es => .tuple ts es :: subsL deep es
  | e => [e]
/-- For a list of expressions. -/
def subsL (deep : Bool) : List (TExpr F) → List (TExpr F)
  | [] => []
  | e :: es => e.subs deep ++ subsL deep es
/-- For the elements of an array. -/
def subsS (deep : Bool) : List (TSpread F) → List (TExpr F)
  | [] => []
  | .expr e :: es => e.subs deep ++ subsS deep es
  | .spread e :: es => e.subs deep ++ subsS deep es
end

/-- The expressions of a statement, without their subexpressions; `calls` tells for which embedded functions the arguments, and the indices of the assignee, are
included. -/
def TStmt.exprs (calls : Embed → Bool × Bool) : TStmt F → List (TExpr F)
  | .ret e | .assertion e _ => [e]
  | .definition a e => e :: a.indices
  | .embed a f _ args => (if (calls f).1 then args else []) ++ (if (calls f).2 then a.indices else [])
  | .log es => es

/-- The calls whose arguments the check of constant arguments inspects. -/
def argsCalls : Embed → Bool × Bool
  | .bitArrayLe => (true, false)
  | _ => (false, false)

/-- Both, arguments and assignees, of all calls. -/
def allCalls (_ : Embed) : Bool × Bool := (true, true)

/-- An integer is not shifted by anything but a literal. -/
def ShiftByLiteral : TExpr F → Prop
  | .ubin _ .shl _ r | .ubin _ .shr _ r => ∃ w k, r = .uval w k
  | _ => True

mutual
/-- Constants: literals, and arrays, structs and tuples of constants. -/
inductive IsConstant : TExpr F → Prop
  | fval {n} : IsConstant (.fval n)
  | bval {b} : IsConstant (.bval b)
  | uval {w n} : IsConstant (.uval w n)
  | array {t n es} : AllConstant es → IsConstant (.array t n es)
  | slice {t n a lo hi} : IsConstant a → IsConstant lo → IsConstant hi → IsConstant (.slice t n a lo hi)
  | repeat_ {t n e c} : IsConstant e → IsConstant c → IsConstant (.repeat_ t n e c)
  | struct {ms es} : (∀ e ∈ es, IsConstant e) → IsConstant (.struct ms es)
  | tuple {ts es} : (∀ e ∈ es, IsConstant e) → IsConstant (.tuple ts es)
/-- For the elements of an array. -/
inductive AllConstant : List (TSpread F) → Prop
  | nil : AllConstant []
  | expr {e es} : IsConstant e → AllConstant es → AllConstant (.expr e :: es)
  | spread {e es} : IsConstant e → AllConstant es → AllConstant (.spread e :: es)
end

/-- The second argument of comparisons of bits with a constant is constant. -/
def CompareConstant : TStmt F → Prop
  | .embed _ .bitArrayLe _ args => ∃ e, args[1]? = some e ∧ IsConstant e
  | _ => True

/-- A select with a literal index is in bounds. -/
def LiteralInBounds : TExpr F → Prop
  | .select _ a (.uval _ k) => ∀ n t, a.ty = .array n t → k < n
  | _ => True

/-- Literal indices of an assignee are in bounds. -/
def TAssignee.LiteralInBounds : TAssignee F → Prop
  | .ident _ _ => True
  | .select a i => (∀ n t w k, a.ty = some (.array n t) → i = .uval w k → k < n) ∧ a.LiteralInBounds
  | .member a _ | .element a _ => a.LiteralInBounds

/-- For the assignee of a statement. -/
def TStmt.AssigneeInBounds : TStmt F → Prop
  | .definition a _ | .embed a _ _ _ => a.LiteralInBounds
  | _ => True

end Zok.Typed
