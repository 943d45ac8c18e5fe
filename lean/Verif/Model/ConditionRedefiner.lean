import Verif.Model.Typed

/-
`zokrates_analysis/src/condition_redefiner.rs`: conditions of conditionals which are neither literals nor variables are assigned to new variables, in front of
the statement. Blocks and assembly statements are not modelled.
-/

namespace Zok.Typed
open Abi
variable {F : Type}

/-- The replacement of a condition which has been folded, `condition_redefiner.rs:62-82`: the new condition, and what is added to the buffer. `n` is
`self.index`, and `cid n` the identifier `CoreIdentifier::Condition(n)`. -/
def newCondition (cid : ℕ → TId) (n : ℕ) : TExpr F → TExpr F × List (TStmt F)
  | .bval b => (.bval b, [])
  | .ident x t => (.ident x t, [])
  | c => (.ident (cid n) .bool, [.definition (.ident (cid n) .bool) c])

mutual
/-- The fold of an expression: `condition_redefiner.rs:54-95` for conditionals, `zokrates_ast/src/typed/folder.rs:866-1478` for all others, which folds the
subexpressions from left to right. `n` is `self.index` before; the second component is what is added to the buffer `self.buffer`; `self.index` is increased
once for each statement added. -/
def redefE (cid : ℕ → TId) (n : ℕ) : TExpr F → TExpr F × List (TStmt F)
  | .fval a => (.fval a, [])
  | .bval b => (.bval b, [])
  | .uval w a => (.uval w a, [])
  | .ident x t => (.ident x t, [])
  | .removed t => (.removed t, [])
  | .fbin op l r =>
    let l' := redefE cid n l
    let r' := redefE cid (n + l'.2.length) r
    (.fbin op l'.1 r'.1, l'.2 ++ r'.2)
  | .fubin op l r =>
    let l' := redefE cid n l
    let r' := redefE cid (n + l'.2.length) r
    (.fubin op l'.1 r'.1, l'.2 ++ r'.2)
  | .fneg e => let e' := redefE cid n e; (.fneg e'.1, e'.2)
  | .fpos e => let e' := redefE cid n e; (.fpos e'.1, e'.2)
  | .ubin w op l r =>
    let l' := redefE cid n l
    let r' := redefE cid (n + l'.2.length) r
    (.ubin w op l'.1 r'.1, l'.2 ++ r'.2)
  | .unot w e => let e' := redefE cid n e; (.unot w e'.1, e'.2)
  | .uneg w e => let e' := redefE cid n e; (.uneg w e'.1, e'.2)
  | .upos w e => let e' := redefE cid n e; (.upos w e'.1, e'.2)
  | .bbin op l r =>
    let l' := redefE cid n l
    let r' := redefE cid (n + l'.2.length) r
    (.bbin op l'.1 r'.1, l'.2 ++ r'.2)
  | .bnot e => let e' := redefE cid n e; (.bnot e'.1, e'.2)
  | .fcmp op l r =>
    let l' := redefE cid n l
    let r' := redefE cid (n + l'.2.length) r
    (.fcmp op l'.1 r'.1, l'.2 ++ r'.2)
  | .ucmp op l r =>
    let l' := redefE cid n l
    let r' := redefE cid (n + l'.2.length) r
    (.ucmp op l'.1 r'.1, l'.2 ++ r'.2)
  | .eq l r =>
    let l' := redefE cid n l
    let r' := redefE cid (n + l'.2.length) r
    (.eq l'.1 r'.1, l'.2 ++ r'.2)
  | .cond t c a b =>
    let c' := redefE cid n c
    let k := newCondition cid (n + c'.2.length) c'.1
    let a' := redefE cid (n + (c'.2 ++ k.2).length) a
    let b' := redefE cid (n + ((c'.2 ++ k.2) ++ a'.2).length) b
    (.cond t k.1 a'.1 b'.1, ((c'.2 ++ k.2) ++ a'.2) ++ b'.2)
  | .select t a i =>
    let a' := redefE cid n a
    let i' := redefE cid (n + a'.2.length) i
    (.select t a'.1 i'.1, a'.2 ++ i'.2)
  | .member t e m => let e' := redefE cid n e; (.member t e'.1 m, e'.2)
  | .element t e i => let e' := redefE cid n e; (.element t e'.1 i, e'.2)
  | .array t k es => let es' := redefS cid n es; (.array t k es'.1, es'.2)
  | .slice t k a lo hi =>
    let a' := redefE cid n a
    let lo' := redefE cid (n + a'.2.length) lo
    let hi' := redefE cid (n + (a'.2 ++ lo'.2).length) hi
    (.slice t k a'.1 lo'.1 hi'.1, (a'.2 ++ lo'.2) ++ hi'.2)
  | .repeat_ t k e c =>
    let e' := redefE cid n e
    let c' := redefE cid (n + e'.2.length) c
    (.repeat_ t k e'.1 c'.1, e'.2 ++ c'.2)
  | .struct ms es => let es' := redefL cid n es; (.struct ms es'.1, es'.2)
  | .tuple ts es => let es' := redefL cid n es; (.tuple ts es'.1, es'.2)
/-- The fold of a list of expressions. -/
def redefL (cid : ℕ → TId) (n : ℕ) : List (TExpr F) → List (TExpr F) × List (TStmt F)
  | [] => ([], [])
  | e :: es =>
    let e' := redefE cid n e
    let es' := redefL cid (n + e'.2.length) es
    (e'.1 :: es'.1, e'.2 ++ es'.2)
/-- The fold of the elements of an array. -/
def redefS (cid : ℕ → TId) (n : ℕ) : List (TSpread F) → List (TSpread F) × List (TStmt F)
  | [] => ([], [])
  | .expr e :: es =>
    let e' := redefE cid n e
    let es' := redefS cid (n + e'.2.length) es
    (.expr e'.1 :: es'.1, e'.2 ++ es'.2)
  | .spread e :: es =>
    let e' := redefE cid n e
    let es' := redefS cid (n + e'.2.length) es
    (.spread e'.1 :: es'.1, e'.2 ++ es'.2)
end

/-- The fold of an assignee, `zokrates_ast/src/typed/folder.rs:1706-1721`. -/
def redefA (cid : ℕ → TId) (n : ℕ) : TAssignee F → TAssignee F × List (TStmt F)
  | .ident x t => (.ident x t, [])
  | .select a i =>
    let a' := redefA cid n a
    let i' := redefE cid (n + a'.2.length) i
    (.select a'.1 i'.1, a'.2 ++ i'.2)
  | .member a m => let a' := redefA cid n a; (.member a'.1 m, a'.2)
  | .element a i => let a' := redefA cid n a; (.element a'.1 i, a'.2)

/-- `fold_statement_cases`, `condition_redefiner.rs:24-29`, `zokrates_ast/src/typed/folder.rs:697-775`: the right side is folded before the assignee, and the
buffer is put in front of the statement. -/
def redefStmt (cid : ℕ → TId) (n : ℕ) : TStmt F → List (TStmt F) × TStmt F
  | .ret e => let e' := redefE cid n e; (e'.2, .ret e'.1)
  | .definition a e =>
    let e' := redefE cid n e
    let a' := redefA cid (n + e'.2.length) a
    (e'.2 ++ a'.2, .definition a'.1 e'.1)
  | .embed a f g args =>
    let args' := redefL cid n args
    let a' := redefA cid (n + args'.2.length) a
    (args'.2 ++ a'.2, .embed a'.1 f g args'.1)
  | .assertion e err => let e' := redefE cid n e; (e'.2, .assertion e'.1 err)
  | .log es => let es' := redefL cid n es; (es'.2, .log es'.1)

/-- The fold of the statements of a function, `zokrates_ast/src/typed/folder.rs:1532-1564`. -/
def redefStmts (cid : ℕ → TId) : ℕ → List (TStmt F) → List (TStmt F)
  | _, [] => []
  | n, s :: ss => (redefStmt cid n s).1 ++ (redefStmt cid n s).2 :: redefStmts cid (n + (redefStmt cid n s).1.length) ss

/-- `ConditionRedefiner::redefine`, `condition_redefiner.rs:17-21`: only the main function is left at this point, and the index starts with 0. -/
def redefine (cid : ℕ → TId) (f : TFun F) : TFun F := { f with body := redefStmts cid 0 f.body }

end Zok.Typed
