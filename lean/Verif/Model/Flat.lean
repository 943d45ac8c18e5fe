import Verif.Model.IR

/-
Flat expressions and statements (`zokrates_ast/src/flat/mod.rs`, `flat/utils.rs`) and their conversion to the
intermediate representation (`zokrates_ast/src/ir/from_flat.rs`). Spans are dropped.
-/

namespace Zok
variable {F : Type _} [Field F] [DecidableEq F] {Z : Type _}

/-- `enum FlatExpression`, `flat/mod.rs:304-311`. -/
inductive FlatExpr (F : Type _) where
  | value (n : F)
  | ident (v : Variable)
  | add (l r : FlatExpr F)
  | sub (l r : FlatExpr F)
  | mul (l r : FlatExpr F)
deriving DecidableEq, Repr

/-- `enum FlatStatement`, `flat/mod.rs:149-158`; a log statement keeps only its expressions. -/
inductive FlatStmt (F Z : Type _) where
  | condition (lin quad : FlatExpr F) (error : RuntimeError)
  | definition (assignee : Variable) (rhs : FlatExpr F)
  | directive (outputs : List Variable) (solver : Solver Z) (inputs : List (FlatExpr F))
  | log (exprs : List (List (FlatExpr F)))
  | block (inner : List (FlatStmt F Z))

namespace FlatExpr

/-- `FlatExpression::is_linear`, `flat/mod.rs:383-395`. -/
def isLinear : FlatExpr F → Bool
  | .value _ | .ident _ => true
  | .add l r => l.isLinear && r.isLinear
  | .sub l r => l.isLinear && r.isLinear
  | .mul (.value _) (.value _) => true
  | .mul (.value _) (.ident _) => true
  | .mul (.ident _) (.value _) => true
  | .mul _ _ => false

/-- `From<FlatExpression> for LinComb`, `ir/from_flat.rs:33-56`; `none` is the `unreachable!` panic. -/
def toLinComb : FlatExpr F → Option (LinComb F)
  | .value n => if n = 0 then some LinComb.zero else some (LinComb.summand n Variable.one)
  | .ident v => some (LinComb.ofVar v)
  | .add l r => match l.toLinComb, r.toLinComb with
    | some a, some b => some (LinComb.add a b)
    | _, _ => none
  | .sub l r => match l.toLinComb, r.toLinComb with
    | some a, some b => some (LinComb.sub a b)
    | _, _ => none
  | .mul (.value n) (.ident v) => some (LinComb.summand n v)
  | .mul (.ident v) (.value n) => some (LinComb.summand n v)
  | .mul (.value n) (.value m) => some (LinComb.summand (n * m) Variable.one)
  | .mul _ _ => none

/-- `QuadComb::new(left.into(), right.into())` on the factors of a product. -/
def mulToQuad (l r : FlatExpr F) : Option (QuadComb F) :=
  match l.toLinComb, r.toLinComb with
  | some a, some b => some ⟨a, b⟩
  | _, _ => none

/-- `QuadComb::from_flat_expression`, `ir/from_flat.rs:8-19`; `none` is `unimplemented!`/`unreachable!`. -/
def toQuadComb (e : FlatExpr F) : Option (QuadComb F) :=
  if e.isLinear then e.toLinComb.map QuadComb.ofLin
  else match e with
    | .mul l r => mulToQuad l r
    | _ => none

/-- The conversion of the `quad` side of a condition or the right-hand side of a definition,
`ir/from_flat.rs:62-70, 75-81`. -/
def sideToQuad : FlatExpr F → Option (QuadComb F)
  | .mul l r => mulToQuad l r
  | e => e.toLinComb.map QuadComb.ofLin

end FlatExpr

mutual
/-- `From<FlatStatement> for Statement`, `ir/from_flat.rs:58-108`; `none` is a panic. -/
def FlatStmt.toIr : FlatStmt F Z → Option (Stmt F Z)
  | .condition lin quad error => match quad.sideToQuad, lin.toLinComb with
    | some q, some l => some (.constraint ⟨q, l, some error⟩)
    | _, _ => none
  | .definition assignee rhs => match rhs.sideToQuad with
    | some q => some (.constraint ⟨q, LinComb.ofVar assignee, none⟩)
    | none => none
  | .directive outputs solver inputs => match inputs.mapM FlatExpr.toQuadComb with
    | some ins => some (.directive ⟨ins, outputs, solver⟩)
    | none => none
  | .log exprs => match exprs.mapM (fun e => e.mapM FlatExpr.toLinComb) with
    | some es => some (.log es)
    | none => none
  | .block inner => match FlatStmt.toIrL inner with
    | some ss => some (.block ss)
    | none => none
/-- `statements.into_iter().map(Into::into)`, `ir/from_flat.rs:25`. -/
def FlatStmt.toIrL : List (FlatStmt F Z) → Option (List (Stmt F Z))
  | [] => some []
  | s :: ss => match s.toIr, FlatStmt.toIrL ss with
    | some s, some ss => some (s :: ss)
    | _, _ => none
end

mutual
/-- One statement of `clean`, `ir/clean.rs`: a block is replaced by its (recursively cleaned) statements. -/
def Stmt.clean : Stmt F Z → List (Stmt F Z)
  | .block ss => Stmt.cleanL ss
  | s => [s]
/-- `clean`, `ir/clean.rs`. -/
def Stmt.cleanL : List (Stmt F Z) → List (Stmt F Z)
  | [] => []
  | s :: ss => s.clean ++ Stmt.cleanL ss
end

/-- `flat_expression_from_expression_summands`, `flat/utils.rs:7-24`: a balanced tree of additions. -/
def flatSummands (v : List (F × FlatExpr F)) : FlatExpr F :=
  match h : v with
  | [] => .value 0
  | [(k, e)] => .mul (.value k) e
  | _ :: _ :: _ => .add (flatSummands (v.take (v.length / 2))) (flatSummands (v.drop (v.length / 2)))
termination_by v.length
decreasing_by
  · subst h; simp [List.length_take]; omega
  · subst h; simp [List.length_drop]; omega

/-- The powers attached by `flat_expression_from_bits`, `flat/utils.rs:27-33`: `(2^i, v_i)` for the reversed list. -/
def withPowers (v : List (FlatExpr F)) : List (F × FlatExpr F) :=
  v.zipIdx.map (fun t => ((2 : F) ^ t.2, t.1))

/-- `flat_expression_from_bits`, `flat/utils.rs:26-34`. -/
def flatFromBits (v : List (FlatExpr F)) : FlatExpr F := flatSummands (withPowers v.reverse)

end Zok
