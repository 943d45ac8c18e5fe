import Verif.Model.Typed
import Verif.Model.Field

/-
`zokrates_analysis/src/boolean_array_comparator.rs`: comparisons of arrays of booleans become comparisons of arrays of field elements, which hold as many
booleans as fit. Blocks and assembly statements are not modelled.
-/

namespace Zok.Typed
open Abi
variable {F : Type} {p : ℕ}

/-- `sum_rec`, `boolean_array_comparator.rs:12-18`; `fuel` bounds the recursion, the length of the list suffices. -/
def sumRec (dflt : TExpr F) : ℕ → List (TExpr F) → TExpr F
  | 0, _ => dflt
  | _ + 1, [] => dflt
  | _ + 1, [a] => a
  | fuel + 1, l => .fbin .add (sumRec dflt fuel (l.take (l.length / 2))) (sumRec dflt fuel (l.drop (l.length / 2)))

/-- A chunk of booleans as a field element, `boolean_array_comparator.rs:60-83`: the first one has the highest weight. -/
def packChunk (chunk : List (TExpr (ZMod p))) : TExpr (ZMod p) :=
  sumRec (.fval 0) chunk.length (chunk.zipIdx.map fun cj =>
    .cond .field cj.1 (.fubin .pow (.fval 2) (.uval .b32 (chunk.length - 1 - cj.2))) (.fval 0))

/-- The array of field elements which holds the booleans of the array `e` of size `n`, `boolean_array_comparator.rs:46-96`. -/
def packArray (e : TExpr (ZMod p)) (n : ℕ) : TExpr (ZMod p) :=
  let cs := chunks (Fld.requiredBits p - 1) n ((List.range n).map fun i => .select .bool e (.uval .b32 i))
  .array .field cs.length (cs.map fun c => .expr (packChunk c))

/-- The comparison of two expressions, `boolean_array_comparator.rs:30-102`: `l` and `r` are the operands, `l'` and `r'` the folded ones. The operands of a
comparison of arrays of booleans are not folded. -/
def compareE (l r l' r' : TExpr (ZMod p)) : TExpr (ZMod p) :=
  match l.ty with
  | .array n .bool => .eq (packArray l n) (packArray r n)
  | _ => .eq l' r'

mutual
/-- The fold of an expression: `boolean_array_comparator.rs:30-104` for comparisons, `zokrates_ast/src/typed/folder.rs:866-1478` for all others. -/
def packE : TExpr (ZMod p) → TExpr (ZMod p)
  | .fval a => .fval a
  | .bval b => .bval b
  | .uval w a => .uval w a
  | .ident x t => .ident x t
  | .removed t => .removed t
  | .fbin op l r => .fbin op (packE l) (packE r)
  | .fubin op l r => .fubin op (packE l) (packE r)
  | .fneg e => .fneg (packE e)
  | .fpos e => .fpos (packE e)
  | .ubin w op l r => .ubin w op (packE l) (packE r)
  | .unot w e => .unot w (packE e)
  | .uneg w e => .uneg w (packE e)
  | .upos w e => .upos w (packE e)
  | .bbin op l r => .bbin op (packE l) (packE r)
  | .bnot e => .bnot (packE e)
  | .fcmp op l r => .fcmp op (packE l) (packE r)
  | .ucmp op l r => .ucmp op (packE l) (packE r)
  | .eq l r => compareE l r (packE l) (packE r)
  | .cond t c a b => .cond t (packE c) (packE a) (packE b)
  | .select t a i => .select t (packE a) (packE i)
  | .member t e m => .member t (packE e) m
  | .element t e i => .element t (packE e) i
  | .array t n es => .array t n (packS es)
  | .slice t n a lo hi => .slice t n (packE a) (packE lo) (packE hi)
  | .repeat_ t n e c => .repeat_ t n (packE e) (packE c)
  | .struct ms es => .struct ms (packL es)
  | .tuple ts es => .tuple ts (packL es)
/-- The fold of a list of expressions. -/
def packL : List (TExpr (ZMod p)) → List (TExpr (ZMod p))
  | [] => []
  | e :: es => packE e :: packL es
/-- The fold of the elements of an array. -/
def packS : List (TSpread (ZMod p)) → List (TSpread (ZMod p))
  | [] => []
  | .expr e :: es => .expr (packE e) :: packS es
  | .spread e :: es => .spread (packE e) :: packS es
end

/-- The fold of an assignee, `zokrates_ast/src/typed/folder.rs:1706-1721`. -/
def packA : TAssignee (ZMod p) → TAssignee (ZMod p)
  | .ident x t => .ident x t
  | .select a i => .select (packA a) (packE i)
  | .member a m => .member (packA a) m
  | .element a i => .element (packA a) i

/-- The fold of a statement, `zokrates_ast/src/typed/folder.rs:697-775`. -/
def packStmt : TStmt (ZMod p) → TStmt (ZMod p)
  | .ret e => .ret (packE e)
  | .definition a e => .definition (packA a) (packE e)
  | .embed a f g args => .embed (packA a) f g (packL args)
  | .assertion e err => .assertion (packE e) err
  | .log es => .log (packL es)

/-- `BooleanArrayComparator::simplify`, `boolean_array_comparator.rs:23-27`. -/
def packComparisons (f : TFun (ZMod p)) : TFun (ZMod p) := { f with body := f.body.map packStmt }

end Zok.Typed
