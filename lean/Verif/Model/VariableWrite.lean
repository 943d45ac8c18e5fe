import Verif.Model.Typed

/-
`zokrates_analysis/src/variable_write_remover.rs`: assignments to array elements with an index that is not a literal are replaced by assignments to the
whole variable. `none` is a panic (`unreachable!`). Blocks and assembly statements are not modelled; without them the fold of an expression changes nothing.
-/

namespace Zok.Typed
open Abi
variable {F : Type}

/-- `Access`, `variable_write_remover.rs:533-538`. -/
inductive Access (F : Type) where
  | select (i : TExpr F)
  | member (m : Str)
  | element (i : ℕ)

/-- `linear`, `variable_write_remover.rs:542-562`: the variable, with its type, and the accesses. -/
def linear : TAssignee F → (TId × CType) × List (Access F)
  | .ident x t => ((x, t), [])
  | .select a i => ((linear a).1, (linear a).2 ++ [.select i])
  | .member a m => ((linear a).1, (linear a).2 ++ [.member m])
  | .element a i => ((linear a).1, (linear a).2 ++ [.element i])

/-- `is_constant`, `variable_write_remover.rs:564-574`. -/
def isConstant : TAssignee F → Bool
  | .ident _ _ => true
  | .select a i => match i with
    | .uval _ _ => isConstant a
    | _ => false
  | .member a _ => isConstant a
  | .element a _ => isConstant a

/-- The expression `choose_many` returns, `variable_write_remover.rs:35-531`. The code repeats each case for the type of the elements, because it has one type of
expressions for each of them; the cases only differ in that. -/
def chooseMany : List (Access F) → TExpr F → TExpr F → Option (TExpr F)
  | [], _, new => some new
  | .select head :: tail, base, new => match base.ty with
    | .array size t => ((List.range size).mapM fun i => (chooseMany tail (.select t base (.uval .b32 i)) new).map fun e =>
        TSpread.expr (.cond t (.eq (.uval .b32 i) head) e (.select t base (.uval .b32 i)))).map fun es => .array t size es
    | _ => none
  | .member head :: tail, base, new => match base.ty with
    | .struct ms => (ms.mapM fun kt => if kt.1 = head then chooseMany tail (.member kt.2 base head) new else some (.member kt.2 base kt.1)).map
        fun es => .struct ms es
    | _ => none
  | .element head :: tail, base, new => match base.ty with
    | .tuple ts => (ts.zipIdx.mapM fun ti => if ti.2 = head then chooseMany tail (.element ti.1 base head) new else some (.element ti.1 base ti.2)).map
        fun es => .tuple ts es
    | _ => none

/-- The statements `choose_many` inserts into the set `statements`, in the order of insertion, with repetitions, `variable_write_remover.rs:61-69`. They only
depend on the accesses and on the type of `base`. -/
def rangeChecks : List (Access F) → CType → List (TStmt F)
  | .select head :: tail, .array size t =>
    .assertion (.ucmp .lt head (.uval .b32 size)) .selectRangeCheck :: (List.range size).flatMap fun _ => rangeChecks tail t
  | .member head :: tail, .struct ms => ms.flatMap fun kt => if kt.1 = head then rangeChecks tail kt.2 else []
  | .element head :: tail, .tuple ts => ts.zipIdx.flatMap fun ti => if ti.2 = head then rangeChecks tail ti.1 else []
  | _, _ => []

/-- `fold_definition_statement`, `variable_write_remover.rs:600-668`. `ord` is the order in which the elements of a `HashSet` are enumerated, without
repetitions. -/
def writeStmt (ord : List (TStmt F) → List (TStmt F)) : TStmt F → Option (List (TStmt F))
  | .definition a e =>
    if isConstant a then some [.definition a e] else
      match chooseMany (linear a).2 (.ident (linear a).1.1 (linear a).1.2) e with
      | some e' => some (ord (rangeChecks (linear a).2 (linear a).1.2) ++ [.definition (.ident (linear a).1.1 (linear a).1.2) e'])
      | none => none
  | s => some [s]

/-- The fold of the statements of a function, `zokrates_ast/src/typed/result_folder.rs:1655-1675`. -/
def writeStmts (ord : List (TStmt F) → List (TStmt F)) : List (TStmt F) → Option (List (TStmt F))
  | [] => some []
  | s :: ss => match writeStmt ord s, writeStmts ord ss with
    | some as, some bs => some (as ++ bs)
    | _, _ => none

/-- `VariableWriteRemover::apply`, `variable_write_remover.rs:31-34`. -/
def removeWrites (ord : List (TStmt F) → List (TStmt F)) (f : TFun F) : Option (TFun F) :=
  (writeStmts ord f.body).map fun b => { f with body := b }

end Zok.Typed
