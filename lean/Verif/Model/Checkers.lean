import Verif.Model.Typed

/-
`zokrates_analysis/src/constant_argument_checker.rs` and `zokrates_analysis/src/out_of_bounds.rs`: two folds which can reject a program. Both are instances of
`ResultFolder` (`zokrates_ast/src/typed/result_folder.rs`), and are given here by one definition, with a parameter which tells them apart. `none` is an error.
Blocks and assembly statements are not modelled.
-/

namespace Zok.Typed
open Abi
variable {F : Type}

/-- `ConstantArgumentChecker` and `OutOfBoundsChecker`. -/
inductive Checker where
  | args
  | bounds
deriving DecidableEq

/-- A literal: `UExpressionInner::Value`. -/
def TExpr.isUval : TExpr F → Bool
  | .uval _ _ => true
  | _ => false

mutual
/-- `is_constant`, `zokrates_ast/src/typed/mod.rs:3492-3682`. -/
def TExpr.constant : TExpr F → Bool
  | .fval _ => true
  | .bval _ => true
  | .uval _ _ => true
  | .array _ _ es => constantS es
  | .slice _ _ a lo hi => lo.constant && hi.constant && a.constant
  | .repeat_ _ _ e c => c.constant && e.constant
  | .struct _ es => constantL es
  | .tuple _ es => constantL es
  | _ => false
/-- `iter().all(..)`. -/
def constantL : List (TExpr F) → Bool
  | [] => true
  | e :: es => e.constant && constantL es
/-- `iter().all(..)` for elements and spreads, `typed/mod.rs:3513-3516`. -/
def constantS : List (TSpread F) → Bool
  | [] => true
  | .expr e :: es => e.constant && constantS es
  | .spread e :: es => e.constant && constantS es
end

/-- The operator on integers whose right side `ConstantArgumentChecker` inspects, `constant_argument_checker.rs:75-104`. -/
def UOp.isShift : UOp → Bool
  | .shl => true
  | .shr => true
  | _ => false

mutual
/-- The fold of an expression: `constant_argument_checker.rs:69-107` for shifts of integers, `out_of_bounds.rs:28-45` for selects, which are not folded further, and
`result_folder.rs` for all others. -/
def checkE (k : Checker) : TExpr F → Option (TExpr F)
  | .fval a => some (.fval a)
  | .bval b => some (.bval b)
  | .uval w a => some (.uval w a)
  | .ident x t => some (.ident x t)
  | .removed t => some (.removed t)
  | .fbin op l r => do some (.fbin op (← checkE k l) (← checkE k r))
  | .fubin op l r => do some (.fubin op (← checkE k l) (← checkE k r))
  | .fneg e => do some (.fneg (← checkE k e))
  | .fpos e => do some (.fpos (← checkE k e))
  | .ubin w op l r => do
    let l' ← checkE k l
    let r' ← checkE k r
    if k = .args ∧ op.isShift ∧ ¬ r'.isUval then none else some (.ubin w op l' r')
  | .unot w e => do some (.unot w (← checkE k e))
  | .uneg w e => do some (.uneg w (← checkE k e))
  | .upos w e => do some (.upos w (← checkE k e))
  | .bbin op l r => do some (.bbin op (← checkE k l) (← checkE k r))
  | .bnot e => do some (.bnot (← checkE k e))
  | .fcmp op l r => do some (.fcmp op (← checkE k l) (← checkE k r))
  | .ucmp op l r => do some (.ucmp op (← checkE k l) (← checkE k r))
  | .eq l r => do some (.eq (← checkE k l) (← checkE k r))
  | .cond t c a b => do some (.cond t (← checkE k c) (← checkE k a) (← checkE k b))
  | .select t a i => match k with
    | .args => do some (.select t (← checkE k a) (← checkE k i))
    | .bounds => match i, a.ty with
      | .uval w n, .array size _ => if size ≤ n then none else some (.select t a (.uval w n))
      | i, _ => some (.select t a i)
  | .member t e m => do some (.member t (← checkE k e) m)
  | .element t e i => do some (.element t (← checkE k e) i)
  | .array t n es => do some (.array t n (← checkS k es))
  | .slice t n a lo hi => do some (.slice t n (← checkE k a) (← checkE k lo) (← checkE k hi))
  | .repeat_ t n e c => do some (.repeat_ t n (← checkE k e) (← checkE k c))
  | .struct ms es => do some (.struct ms (← checkL k es))
  | .tuple ts es => do some (.tuple ts (← checkL k es))
/-- The fold of a list of expressions. -/
def checkL (k : Checker) : List (TExpr F) → Option (List (TExpr F))
  | [] => some []
  | e :: es => do some ((← checkE k e) :: (← checkL k es))
/-- The fold of the elements of an array, `result_folder.rs:548-570`. -/
def checkS (k : Checker) : List (TSpread F) → Option (List (TSpread F))
  | [] => some []
  | .expr e :: es => do some (.expr (← checkE k e) :: (← checkS k es))
  | .spread e :: es => do some (.spread (← checkE k e) :: (← checkS k es))
end

/-- The fold of an assignee: `out_of_bounds.rs:47-82`, and `result_folder.rs:951-968` otherwise. An assignee without a type is a panic in `out_of_bounds.rs:57-63`,
and is given as an error here; it does not occur in well-typed programs. -/
def checkA (k : Checker) : TAssignee F → Option (TAssignee F)
  | .ident x t => some (.ident x t)
  | .select a i => match k with
    | .args => do some (.select (← checkA k a) (← checkE k i))
    | .bounds => do
      let a' ← checkA k a
      match a'.ty, i with
      | some (.array size _), .uval w n => if size ≤ n then none else some (.select a' (.uval w n))
      | some (.array _ _), i => some (.select a' (← checkE k i))
      | _, _ => none
  | .member a m => do some (.member (← checkA k a) m)
  | .element a i => do some (.element (← checkA k a) i)

/-- The fold of a statement: `constant_argument_checker.rs:30-67` for definitions, `result_folder.rs:740-885` otherwise. `ConstantArgumentChecker` folds neither
the assignee of the call of an embedded function, nor the arguments unless the function is `BitArrayLe`; `arguments[1]` panics if there is no second one, which is
given as an error here. -/
def checkStmt (k : Checker) : TStmt F → Option (TStmt F)
  | .ret e => do some (.ret (← checkE k e))
  | .definition a e => do
    let e' ← checkE k e
    let a' ← checkA k a
    some (.definition a' e')
  | .embed a f g args => match k with
    | .args => match f with
      | .bitArrayLe => do
        let args' ← checkL k args
        match args'[1]? with
        | some e => if e.constant then some (.embed a .bitArrayLe g args') else none
        | none => none
      | f => some (.embed a f g args)
    | .bounds => do
      let args' ← checkL k args
      let a' ← checkA k a
      some (.embed a' f g args')
  | .assertion e err => do some (.assertion (← checkE k e) err)
  | .log es => do some (.log (← checkL k es))

/-- The fold of the statements of a function, `result_folder.rs:1655-1675`. -/
def checkStmts (k : Checker) : List (TStmt F) → Option (List (TStmt F))
  | [] => some []
  | s :: ss => do some ((← checkStmt k s) :: (← checkStmts k ss))

/-- `ConstantArgumentChecker::check`, `constant_argument_checker.rs:12-16`, and `OutOfBoundsChecker::check`, `out_of_bounds.rs:20-24`. -/
def check (k : Checker) (f : TFun F) : Option (TFun F) := do some { f with body := ← checkStmts k f.body }

end Zok.Typed
