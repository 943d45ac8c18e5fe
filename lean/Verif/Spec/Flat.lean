import Verif.Model.Flat
import Verif.Spec.Sat

/-
Specification of flat expressions and statements.
-/

namespace Zok
variable {F : Type _} [Field F] {Z : Type _}

/-- The value of a flat expression. -/
def FlatExpr.val (ρ : Assignment F) : FlatExpr F → F
  | .value n => n
  | .ident v => ρ v
  | .add l r => l.val ρ + r.val ρ
  | .sub l r => l.val ρ - r.val ρ
  | .mul l r => l.val ρ * r.val ρ

/-- Variables of a flat expression. -/
def FlatExpr.vars : FlatExpr F → List Variable
  | .value _ => []
  | .ident v => [v]
  | .add l r => l.vars ++ r.vars
  | .sub l r => l.vars ++ r.vars
  | .mul l r => l.vars ++ r.vars

/-- A flat expression is *linear* when products only occur with a literal constant on one side and a variable or a literal
constant on the other. -/
inductive FlatExpr.Linear : FlatExpr F → Prop
  | value (n) : Linear (.value n)
  | ident (v) : Linear (.ident v)
  | add {l r} : Linear l → Linear r → Linear (.add l r)
  | sub {l r} : Linear l → Linear r → Linear (.sub l r)
  | mulVV (n m) : Linear (.mul (.value n) (.value m))
  | mulVI (n v) : Linear (.mul (.value n) (.ident v))
  | mulIV (v n) : Linear (.mul (.ident v) (.value n))

/-- A flat expression is a *product of linear expressions*, or linear. -/
inductive FlatExpr.Quadratic : FlatExpr F → Prop
  | linear {e} : Linear e → Quadratic e
  | mul {l r} : Linear l → Linear r → Quadratic (.mul l r)

/-- Satisfaction of a flat statement: a condition asks both sides to be equal, a definition asks the variable to have the
value of the expression, directives and logs constrain nothing. -/
inductive FlatStmt.Sat (ρ : Assignment F) : FlatStmt F Z → Prop
  | condition {lin quad error} (h : lin.val ρ = quad.val ρ) : FlatStmt.Sat ρ (.condition lin quad error)
  | definition {x e} (h : ρ x = e.val ρ) : FlatStmt.Sat ρ (.definition x e)
  | directive (o s i) : FlatStmt.Sat ρ (.directive o s i)
  | log (l) : FlatStmt.Sat ρ (.log l)
  | block {ss} (h : ∀ s ∈ ss, FlatStmt.Sat ρ s) : FlatStmt.Sat ρ (.block ss)

/-- The shape of flat statements that can be lowered. -/
inductive FlatStmt.Lowerable : FlatStmt F Z → Prop
  | condition {lin quad error} : lin.Linear → quad.Quadratic → Lowerable (.condition lin quad error)
  | definition {x e} : e.Quadratic → Lowerable (.definition x e)
  | directive {o s i} : (∀ e ∈ i, FlatExpr.Quadratic e) → Lowerable (.directive o s i)
  | log {l} : (∀ es ∈ l, ∀ e ∈ es, FlatExpr.Linear e) → Lowerable (.log l)
  | block {ss} : (∀ s ∈ ss, Lowerable s) → Lowerable (.block ss)

end Zok
