import Verif.Spec.ZirExec

/-
The input of the extraction of panics: no powers with exponent zero (propagation replaces them by 1), and constraints of assembly
blocks are polynomials.
-/

namespace Zok
variable {F Z : Type}

mutual
/-- No power has the literal exponent zero. -/
def FExpr.NoPowZero : FExpr F → Prop
  | .value _ | .ident _ => True
  | .select es i => FExpr.NoPowZeroL es ∧ i.NoPowZero
  | .add l r | .sub l r | .mult l r | .div l r | .and l r | .or l r | .xor l r => l.NoPowZero ∧ r.NoPowZero
  | .pow b n => b.NoPowZero ∧ n.NoPowZero ∧ n.inner ≠ .value 0
  | .leftShift e n | .rightShift e n => e.NoPowZero ∧ n.NoPowZero
  | .cond c t e => c.NoPowZero ∧ t.NoPowZero ∧ e.NoPowZero
/-- No power has the literal exponent zero. -/
def FExpr.NoPowZeroL : List (FExpr F) → Prop
  | [] => True
  | e :: es => e.NoPowZero ∧ FExpr.NoPowZeroL es
/-- No power has the literal exponent zero. -/
def BExpr.NoPowZero : BExpr F → Prop
  | .value _ | .ident _ => True
  | .select es i => BExpr.NoPowZeroL es ∧ i.NoPowZero
  | .fieldLt l r | .fieldLe l r | .fieldEq l r => l.NoPowZero ∧ r.NoPowZero
  | .uintLt l r | .uintLe l r | .uintEq l r => l.NoPowZero ∧ r.NoPowZero
  | .boolEq l r | .or l r | .and l r => l.NoPowZero ∧ r.NoPowZero
  | .not e => e.NoPowZero
  | .cond c t e => c.NoPowZero ∧ t.NoPowZero ∧ e.NoPowZero
/-- No power has the literal exponent zero. -/
def BExpr.NoPowZeroL : List (BExpr F) → Prop
  | [] => True
  | e :: es => e.NoPowZero ∧ BExpr.NoPowZeroL es
/-- No power has the literal exponent zero. -/
def UExpr.NoPowZero : UExpr F → Prop
  | .mk _ _ i => i.NoPowZero
/-- No power has the literal exponent zero. -/
def UExpr.NoPowZeroL : List (UExpr F) → Prop
  | [] => True
  | e :: es => e.NoPowZero ∧ UExpr.NoPowZeroL es
/-- No power has the literal exponent zero. -/
def UInner.NoPowZero : UInner F → Prop
  | .value _ | .ident _ => True
  | .select es i => UExpr.NoPowZeroL es ∧ i.NoPowZero
  | .add l r | .sub l r | .mult l r | .div l r | .rem l r | .xor l r | .and l r | .or l r => l.NoPowZero ∧ r.NoPowZero
  | .leftShift e n | .rightShift e n => e.NoPowZero ∧ n.NoPowZero
  | .not e => e.NoPowZero
  | .cond c t e => c.NoPowZero ∧ t.NoPowZero ∧ e.NoPowZero
end

/-- No power has the literal exponent zero. -/
def ZExpr.NoPowZero : ZExpr F → Prop
  | .field e => e.NoPowZero
  | .bool e => e.NoPowZero
  | .uint e => e.NoPowZero

/-- Polynomials: literals, variables, sums, differences and products. -/
def FExpr.Poly : FExpr F → Prop
  | .value _ | .ident _ => True
  | .add l r | .sub l r | .mult l r => l.Poly ∧ r.Poly
  | _ => False

/-- Assembly statements with polynomial constraints. -/
def ZAsm.Poly : ZAsm F Z → Prop
  | .assignment _ _ _ => True
  | .constraint l r _ => l.Poly ∧ r.Poly

mutual
/-- The input of the extraction of panics. -/
def ZStmt.Extractable : ZStmt F Z → Prop
  | .ret es => ∀ e ∈ es, e.NoPowZero
  | .definition _ e => e.NoPowZero
  | .ifElse c t e => c.NoPowZero ∧ ZStmt.ExtractableL t ∧ ZStmt.ExtractableL e
  | .assertion e _ => e.NoPowZero
  | .multiDef _ _ _ args => ∀ e ∈ args, e.NoPowZero
  | .log es => ∀ e ∈ es.flatten, e.NoPowZero
  | .assembly ss => ∀ s ∈ ss, ZAsm.Poly s
/-- The input of the extraction of panics. -/
def ZStmt.ExtractableL : List (ZStmt F Z) → Prop
  | [] => True
  | s :: ss => s.Extractable ∧ ZStmt.ExtractableL ss
end

mutual
/-- No field element is used as a boolean without a check. -/
def ZStmt.NoCast : ZStmt F Z → Prop
  | .multiDef _ embed _ _ => embed ≠ .fieldToBoolUnsafe
  | .ifElse _ t e => ZStmt.NoCastL t ∧ ZStmt.NoCastL e
  | _ => True
/-- Lists of such statements. -/
def ZStmt.NoCastL : List (ZStmt F Z) → Prop
  | [] => True
  | s :: ss => s.NoCast ∧ ZStmt.NoCastL ss
end

end Zok
