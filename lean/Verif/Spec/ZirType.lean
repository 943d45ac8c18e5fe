import Verif.Spec.ZirExec

/-
Well-typed ZIR, before any range analysis: operands of an integer operator have the width of the operator, literals fit
their width, exponents, shifts and array indices have width 32, and widths are at most 64 (the language has 8, 16, 32
and 64). The types of variables are not tracked: evaluation fails on a variable of the wrong type.
-/

namespace Zok
variable {p : ℕ}

mutual
/-- Well-typed field expressions. -/
def TyF : FExpr (ZMod p) → Prop
  | .value _ => True
  | .ident _ => True
  | .select es i => TyFs es ∧ TyU i ∧ i.width = 32
  | .add l r => TyF l ∧ TyF r
  | .sub l r => TyF l ∧ TyF r
  | .mult l r => TyF l ∧ TyF r
  | .div l r => TyF l ∧ TyF r
  | .pow b e => TyF b ∧ TyU e ∧ e.width = 32
  | .cond c t e => TyB c ∧ TyF t ∧ TyF e
  | .and l r => TyF l ∧ TyF r
  | .or l r => TyF l ∧ TyF r
  | .xor l r => TyF l ∧ TyF r
  | .leftShift b e => TyF b ∧ TyU e ∧ e.width = 32
  | .rightShift b e => TyF b ∧ TyU e ∧ e.width = 32
/-- Lists of well-typed field expressions. -/
def TyFs : List (FExpr (ZMod p)) → Prop
  | [] => True
  | e :: es => TyF e ∧ TyFs es
/-- Well-typed boolean expressions. -/
def TyB : BExpr (ZMod p) → Prop
  | .value _ => True
  | .ident _ => True
  | .select es i => TyBs es ∧ TyU i ∧ i.width = 32
  | .fieldLt l r => TyF l ∧ TyF r
  | .fieldLe l r => TyF l ∧ TyF r
  | .fieldEq l r => TyF l ∧ TyF r
  | .uintLt l r => TyU l ∧ TyU r ∧ l.width = r.width
  | .uintLe l r => TyU l ∧ TyU r ∧ l.width = r.width
  | .uintEq l r => TyU l ∧ TyU r ∧ l.width = r.width
  | .boolEq l r => TyB l ∧ TyB r
  | .or l r => TyB l ∧ TyB r
  | .and l r => TyB l ∧ TyB r
  | .not e => TyB e
  | .cond c t e => TyB c ∧ TyB t ∧ TyB e
/-- Lists of well-typed boolean expressions. -/
def TyBs : List (BExpr (ZMod p)) → Prop
  | [] => True
  | e :: es => TyB e ∧ TyBs es
/-- Well-typed integer expressions. -/
def TyU : UExpr (ZMod p) → Prop
  | .mk w _ i => w ≤ 64 ∧ TyUI w i
/-- Lists of well-typed integer expressions of width `w`. -/
def TyUs (w : ℕ) : List (UExpr (ZMod p)) → Prop
  | [] => True
  | e :: es => (TyU e ∧ e.width = w) ∧ TyUs w es
/-- Well-typed integer expressions of width `w`. -/
def TyUI (w : ℕ) : UInner (ZMod p) → Prop
  | .value n => n < 2 ^ w
  | .ident _ => True
  | .select es i => TyUs w es ∧ TyU i ∧ i.width = 32
  | .add l r => TyU l ∧ TyU r ∧ l.width = w ∧ r.width = w
  | .sub l r => TyU l ∧ TyU r ∧ l.width = w ∧ r.width = w
  | .mult l r => TyU l ∧ TyU r ∧ l.width = w ∧ r.width = w
  | .div l r => TyU l ∧ TyU r ∧ l.width = w ∧ r.width = w
  | .rem l r => TyU l ∧ TyU r ∧ l.width = w ∧ r.width = w
  | .xor l r => TyU l ∧ TyU r ∧ l.width = w ∧ r.width = w
  | .and l r => TyU l ∧ TyU r ∧ l.width = w ∧ r.width = w
  | .or l r => TyU l ∧ TyU r ∧ l.width = w ∧ r.width = w
  | .leftShift e b => TyU e ∧ TyU b ∧ e.width = w ∧ b.width = 32
  | .rightShift e b => TyU e ∧ TyU b ∧ e.width = w ∧ b.width = 32
  | .not e => TyU e ∧ e.width = w
  | .cond c t e => TyB c ∧ TyU t ∧ TyU e ∧ t.width = w ∧ e.width = w
end

/-- Integer variables hold values of their width. -/
def UintsFit (env : ZEnv p) : Prop := ∀ x w n, env x = some (.uint w n) → n < 2 ^ w

/-- Well-typed expressions. -/
def TyZ : ZExpr (ZMod p) → Prop
  | .field e => TyF e
  | .bool e => TyB e
  | .uint e => TyU e

end Zok

namespace Zok
variable {p : ℕ} {Z : Type}

/-- The variables a statement of an assembly block assigns. -/
def ZAsm.defs {F : Type} : ZAsm F Z → List ZId
  | .assignment xs _ _ => xs
  | .constraint _ _ _ => []

/-- The variables a statement assigns (branching statements excluded). -/
def ZStmt.defs {F : Type} : ZStmt F Z → List ZId
  | .definition x _ => [x]
  | .multiDef xs _ _ _ => xs
  | .assembly ss => ss.flatMap ZAsm.defs
  | _ => []

/-- Well-typed statements of assembly blocks, where `ar` is the number of results of each hint. -/
def TyAsm (ar : Z → ℕ) : ZAsm (ZMod p) Z → Prop
  | .assignment xs f _ => xs.length = ar f
  | .constraint l r _ => TyF l ∧ TyF r

/-- Well-typed statements without branches, where the variables in `K` have been assigned before: calls assign
variables that have not been assigned before. -/
def TyStmt (ar : Z → ℕ) (K : ZId → Prop) : ZStmt (ZMod p) Z → Prop
  | .ret es => ∀ e ∈ es, TyZ e
  | .definition _ e => TyZ e
  | .ifElse _ _ _ => False
  | .assertion e _ => TyB e
  | .multiDef xs _ _ args => (∀ x ∈ xs, ¬ K x) ∧ ∀ e ∈ args, TyZ e
  | .log es => ∀ e ∈ es.flatten, TyZ e
  | .assembly ss => ∀ s ∈ ss, TyAsm ar s

/-- Well-typed sequences of statements without branches. -/
def TyStmts (ar : Z → ℕ) (K : ZId → Prop) : List (ZStmt (ZMod p) Z) → Prop
  | [] => True
  | s :: ss => TyStmt ar K s ∧ TyStmts ar (fun x => K x ∨ x ∈ s.defs) ss

/-- Well-typed functions without branches. -/
def TyFun (ar : Z → ℕ) (f : ZFun (ZMod p) Z) : Prop := TyStmts ar (fun x => x ∈ f.params.map ZParam.id) f.body

end Zok
