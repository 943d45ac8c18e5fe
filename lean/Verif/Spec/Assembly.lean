import Verif.Spec.ZirExec
import Verif.Spec.Flat

/-
Constraints of assembly blocks: degrees of polynomials, and the forms of expressions that need no auxiliary variables.
-/

namespace Zok
variable {F Z : Type}

/-- A polynomial expression of degree at most `d`. -/
inductive FExpr.Degree : ℕ → FExpr F → Prop
  | value {d n} : Degree d (.value n)
  | ident {d x} : 1 ≤ d → Degree d (.ident x)
  | add {d l r} : Degree d l → Degree d r → Degree d (.add l r)
  | sub {d l r} : Degree d l → Degree d r → Degree d (.sub l r)
  | mult {d a b l r} : Degree a l → Degree b r → a + b ≤ d → Degree d (.mult l r)

/-- A polynomial expression. -/
def FExpr.IsPoly (e : FExpr F) : Prop := ∃ d, e.Degree d

/-- The constraint is not a polynomial identity of degree higher than two. -/
def AtMostQuadratic (l r : FExpr F) : Prop := l.IsPoly → r.IsPoly → l.Degree 2 ∧ r.Degree 2

mutual
/-- The constraints of a statement are at most quadratic. -/
def ZStmt.AtMostQuadratic : ZStmt F Z → Prop
  | .ifElse _ t e => ZStmt.AtMostQuadraticL t ∧ ZStmt.AtMostQuadraticL e
  | .assembly ss => ∀ l r info, ZAsm.constraint l r info ∈ ss → Zok.AtMostQuadratic l r
  | _ => True
/-- The constraints of a list of statements are at most quadratic. -/
def ZStmt.AtMostQuadraticL : List (ZStmt F Z) → Prop
  | [] => True
  | s :: ss => s.AtMostQuadratic ∧ ZStmt.AtMostQuadraticL ss
end

/-- Every product with a literal operand is a product with a variable or a literal: `2 * x`, but not `2 * (x + y)`. -/
inductive FExpr.Simple : FExpr F → Prop
  | value {n} : Simple (.value n)
  | ident {x} : Simple (.ident x)
  | add {l r} : Simple l → Simple r → Simple (.add l r)
  | sub {l r} : Simple l → Simple r → Simple (.sub l r)
  | literalL {n m} : Simple (.mult (.value n) (.value m))
  | literalV {n x} : Simple (.mult (.value n) (.ident x))
  | literalR {n x} : Simple (.mult (.ident x) (.value n))
  | mult {l r} : Simple l → Simple r → (∀ n, l ≠ .value n) → (∀ n, r ≠ .value n) → Simple (.mult l r)

/-- A statement of an assembly block and the one statement it is compiled to: hints become directives with as many inputs and
outputs, constraints become one quadratic constraint. -/
inductive ZAsm.OneStmt : ZAsm F Z → FlatStmt F Z → Prop
  | assignment {xs f args} {outs ins : List Variable} : outs.length = xs.length → ins.length = args.length →
      OneStmt (.assignment xs f args) (.directive outs (.zir f) (ins.map FlatExpr.ident))
  | constraint {l r info a b} : FlatExpr.Linear a → FlatExpr.Quadratic b →
      OneStmt (.constraint l r info) (.condition a b (.sourceAssemblyConstraint info))

/-- The variables hints assign. -/
def ZAsm.targets : List (ZAsm F Z) → List ZId
  | [] => []
  | .assignment xs _ _ :: ss => xs ++ ZAsm.targets ss
  | .constraint _ _ _ :: ss => ZAsm.targets ss

end Zok
