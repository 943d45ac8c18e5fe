import Verif.Model.Abi
import Verif.Model.IR
import Verif.Model.FlattenerStmt

/-
The typed syntax tree behind the reducer: `zokrates_ast/src/typed/mod.rs`, `typed/uint.rs`, `typed/types.rs`. The seven expression types of the code
(`FieldElementExpression`, `BooleanExpression`, `UExpression`, `ArrayExpression`, `StructExpression`, `TupleExpression`, `IntExpression`) are one type
here, whose nodes carry the type of the expression as in the code; the separation is expressed by the predicate `TExpr.Wt` of `Spec/TypedEval.lean`.
Spans are dropped. Blocks, which hold statements inside of expressions, and assembly statements are not modelled.
-/

namespace Zok.Typed
open Abi

/-- `Identifier`, `typed/identifier.rs`: a name, a call frame and a version; the code only compares them. -/
abbrev TId := ℕ

/-- Operators between field elements: `Add`, `Sub`, `Mult`, `Div`, `And`, `Or`, `Xor` of `FieldElementExpression`, `typed/mod.rs`. -/
inductive FOp where
  | add | sub | mult | div | and | or | xor
deriving DecidableEq, Repr

/-- Operators between a field element and a `u32`: `Pow`, `LeftShift`, `RightShift` of `FieldElementExpression`. -/
inductive FUOp where
  | pow | shl | shr
deriving DecidableEq, Repr

/-- Operators between unsigned integers: `UExpressionInner`, `typed/uint.rs`. -/
inductive UOp where
  | add | sub | mult | div | rem | xor | and | or | shl | shr
deriving DecidableEq, Repr

/-- `Or` and `And` of `BooleanExpression`. -/
inductive BOp where
  | and | or
deriving DecidableEq, Repr

/-- `Lt` and `Le` of `BooleanExpression`. -/
inductive COp where
  | lt | le
deriving DecidableEq, Repr

mutual
/-- `TypedExpression`, `typed/mod.rs`, `typed/uint.rs`. -/
inductive TExpr (F : Type) where
  | fval (n : F)
  | bval (b : Bool)
  | uval (w : UW) (n : ℕ)
  | ident (x : TId) (t : CType)
  | fbin (op : FOp) (l r : TExpr F)
  | fubin (op : FUOp) (l r : TExpr F)
  | fneg (e : TExpr F)
  | fpos (e : TExpr F)
  | ubin (w : UW) (op : UOp) (l r : TExpr F)
  | unot (w : UW) (e : TExpr F)
  | uneg (w : UW) (e : TExpr F)
  | upos (w : UW) (e : TExpr F)
  | bbin (op : BOp) (l r : TExpr F)
  | bnot (e : TExpr F)
  | fcmp (op : COp) (l r : TExpr F)
  | ucmp (op : COp) (l r : TExpr F)
  /-- `FieldEq`, `BoolEq`, `UintEq`, `ArrayEq`, `StructEq`, `TupleEq` -/
  | eq (l r : TExpr F)
  | cond (t : CType) (c a b : TExpr F)
  | select (t : CType) (a i : TExpr F)
  | member (t : CType) (s : TExpr F) (m : Str)
  | element (t : CType) (e : TExpr F) (i : ℕ)
  | array (t : CType) (size : ℕ) (es : List (TSpread F))
  | slice (t : CType) (size : ℕ) (a lo hi : TExpr F)
  | repeat_ (t : CType) (size : ℕ) (e count : TExpr F)
  | struct (ms : List (Str × CType)) (es : List (TExpr F))
  | tuple (ts : List CType) (es : List (TExpr F))
  /-- function calls, `FloorSub`, and expressions of type `int`: removed before this point -/
  | removed (t : CType)
/-- `TypedExpressionOrSpread`, `typed/mod.rs`. -/
inductive TSpread (F : Type) where
  | expr (e : TExpr F)
  | spread (e : TExpr F)
end

variable {F : Type}

/-- `get_type`, `typed/mod.rs`: the type of an expression, which is stored in its outermost node. -/
def TExpr.ty : TExpr F → CType
  | .fval _ | .fbin _ _ _ | .fubin _ _ _ | .fneg _ | .fpos _ => .field
  | .bval _ | .bbin _ _ _ | .bnot _ | .fcmp _ _ _ | .ucmp _ _ _ | .eq _ _ => .bool
  | .uval w _ | .ubin w _ _ _ | .unot w _ | .uneg w _ | .upos w _ => .uint w
  | .ident _ t | .cond t _ _ _ | .select t _ _ | .member t _ _ | .element t _ _ | .removed t => t
  | .array t n _ | .slice t n _ _ _ | .repeat_ t n _ _ => .array n t
  | .struct ms _ => .struct ms
  | .tuple ts _ => .tuple ts

/-- `TypedAssignee`, `typed/mod.rs`. -/
inductive TAssignee (F : Type) where
  | ident (x : TId) (t : CType)
  | select (a : TAssignee F) (i : TExpr F)
  | member (a : TAssignee F) (m : Str)
  | element (a : TAssignee F) (i : ℕ)

/-- `get_type` of an assignee, `typed/mod.rs`: `none` is a panic. -/
def TAssignee.ty : TAssignee F → Option CType
  | .ident _ t => some t
  | .select a _ => match a.ty with
    | some (.array _ t) => some t
    | _ => none
  | .member a m => match a.ty with
    | some (.struct ms) => ms.lookup m
    | _ => none
  | .element a i => match a.ty with
    | some (.tuple ts) => ts[i]?
    | _ => none

/-- The variable an assignee is a part of. -/
def TAssignee.root : TAssignee F → TId
  | .ident x _ => x
  | .select a _ | .member a _ | .element a _ => a.root

/-- The type of the variable an assignee is a part of. -/
def TAssignee.rootTy : TAssignee F → CType
  | .ident _ t => t
  | .select a _ | .member a _ | .element a _ => a.rootTy

/-- `TypedStatement`, `typed/mod.rs`, without loops (unrolled by the reducer) and assembly. -/
inductive TStmt (F : Type) where
  | ret (e : TExpr F)
  | definition (a : TAssignee F) (e : TExpr F)
  /-- `DefinitionRhs::EmbedCall` -/
  | embed (a : TAssignee F) (embed : Embed) (generics : List ℕ) (args : List (TExpr F))
  | assertion (e : TExpr F) (error : RuntimeError)
  | log (es : List (TExpr F))

/-- `DeclarationParameter`, `typed/parameter.rs`: a typed variable, private or not. -/
structure TParam where
  id : TId
  ty : CType
  priv : Bool

/-- `TypedFunction`, `typed/mod.rs`: parameters, statements, and the return type of the signature. -/
structure TFun (F : Type) where
  params : List TParam
  body : List (TStmt F)
  ret : CType

end Zok.Typed
