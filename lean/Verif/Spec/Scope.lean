import Verif.Spec.Flat
import Verif.Model.FlattenerStmt
import Mathlib.Data.Set.Basic
import Mathlib.Data.Set.Insert

/-
Specification: scoping of flat statements. `Sc D s D'`: the statement `s` only reads variables of `D`, the variables it
computes are not in `D`, and `D'` is `D` with these variables.
-/

namespace Zok
variable {F Z : Type}

/-- The variables of the expression are in `D`. -/
def FlatExpr.In (D : Set Variable) : FlatExpr F → Prop
  | .value _ => True
  | .ident v => v ∈ D
  | .add l r => l.In D ∧ r.In D
  | .sub l r => l.In D ∧ r.In D
  | .mul l r => l.In D ∧ r.In D

mutual
/-- Scoping of a statement. A condition computes a variable only in the majority gadget, see `FlatStmt.Hon`. -/
inductive Sc : Set Variable → FlatStmt F Z → Set Variable → Prop
  | condition {D l q e} : l.In D → q.In D → (∀ v, l = .ident v → e ≠ .shaXor) → Sc D (.condition l q e) D
  | computed {D v q} : q.In D → v ∉ D → Sc D (.condition (.ident v) q .shaXor) (insert v D)
  | definition {D x e} : e.In D → x ∉ D → Sc D (.definition x e) (insert x D)
  | directive {D o s i} : (∀ e ∈ i, FlatExpr.In D e) → o.Nodup → (∀ x ∈ o, x ∉ D) →
      Sc D (.directive o s i) (D ∪ {x | x ∈ o})
  | log {D l} : (∀ es ∈ l, ∀ e ∈ es, FlatExpr.In D e) → Sc D (.log l) D
  | block {D ss D'} : Scs D ss D' → Sc D (.block ss) D'
/-- Scoping of a list of statements. -/
inductive Scs : Set Variable → List (FlatStmt F Z) → Set Variable → Prop
  | nil {D} : Scs D [] D
  | cons {D s D' ss D''} : Sc D s D' → Scs D' ss D'' → Scs D (s :: ss) D''
end

/-- The errors the assertions of ZIR carry, `zir/mod.rs:117-122` and `common/error.rs:36-49`. -/
def RuntimeError.ofZir : RuntimeError → Prop
  | .sourceAssertion _ | .selectRangeCheck | .inverse | .incompleteDynamicRange => True
  | _ => False

mutual
/-- Statements that do not return, and whose assertions carry the errors of ZIR. -/
def ZStmt.Inner : ZStmt F Z → Prop
  | .ret _ => False
  | .assertion _ err => err.ofZir
  | .ifElse _ t e => ZStmt.InnerL t ∧ ZStmt.InnerL e
  | _ => True
/-- Lists of such statements. -/
def ZStmt.InnerL : List (ZStmt F Z) → Prop
  | [] => True
  | s :: ss => s.Inner ∧ ZStmt.InnerL ss
end

/-- The only return statement is the last statement. -/
def SingleReturn (f : ZFun F Z) : Prop := ∃ ss es, f.body = ss ++ [.ret es] ∧ ZStmt.InnerL ss

end Zok
