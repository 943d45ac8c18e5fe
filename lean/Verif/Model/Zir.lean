import Verif.Model.IR

/-
The typed intermediate representation ZIR: `zokrates_ast/src/zir/mod.rs`, `zir/uint.rs`. Spans, which are ignored by
equality (`#[derivative(PartialEq = "ignore")]` in `common/expressions.rs`), are dropped.
-/

namespace Zok

/-- Identifiers of ZIR (`zir/identifier.rs`); the code only compares them for equality. -/
abbrev ZId := ℕ

/-- `enum ShouldReduce`, `zir/uint.rs:97-102`. -/
inductive ShouldReduce where
  | unknown | yes | no
deriving DecidableEq, Repr

/-- `ShouldReduce::to_bool`, `zir/uint.rs:105-113`; `none` is the `unreachable!` panic. -/
def ShouldReduce.toBool? : ShouldReduce → Option Bool
  | .unknown => none
  | .yes => some true
  | .no => some false

/-- `struct UMetadata`, `zir/uint.rs:141-145`. -/
structure UMeta (F : Type _) where
  max : F
  shouldReduce : ShouldReduce
deriving DecidableEq, Repr

mutual
/-- `enum FieldElementExpression`, `zir/mod.rs:700-717`. -/
inductive FExpr (F : Type _) where
  | value (n : F)
  | ident (x : ZId)
  | select (array : List (FExpr F)) (index : UExpr F)
  | add (l r : FExpr F)
  | sub (l r : FExpr F)
  | mult (l r : FExpr F)
  | div (l r : FExpr F)
  | pow (base : FExpr F) (exp : UExpr F)
  | and (l r : FExpr F)
  | or (l r : FExpr F)
  | xor (l r : FExpr F)
  | leftShift (e : FExpr F) (by_ : UExpr F)
  | rightShift (e : FExpr F) (by_ : UExpr F)
  | cond (c : BExpr F) (t e : FExpr F)
/-- `enum BooleanExpression`, `zir/mod.rs`. -/
inductive BExpr (F : Type _) where
  | value (b : Bool)
  | ident (x : ZId)
  | select (array : List (BExpr F)) (index : UExpr F)
  | fieldLt (l r : FExpr F)
  | fieldLe (l r : FExpr F)
  | fieldEq (l r : FExpr F)
  | uintLt (l r : UExpr F)
  | uintLe (l r : UExpr F)
  | uintEq (l r : UExpr F)
  | boolEq (l r : BExpr F)
  | or (l r : BExpr F)
  | and (l r : BExpr F)
  | not (e : BExpr F)
  | cond (c t e : BExpr F)
/-- `struct UExpression`, `zir/uint.rs:168-176`: a bitwidth, optional metadata, and the expression. -/
inductive UExpr (F : Type _) where
  | mk (w : ℕ) (info : Option (UMeta F)) (inner : UInner F)
/-- `enum UExpressionInner`, `zir/uint.rs:178-203`. -/
inductive UInner (F : Type _) where
  | value (n : ℕ)
  | ident (x : ZId)
  | select (array : List (UExpr F)) (index : UExpr F)
  | add (l r : UExpr F)
  | sub (l r : UExpr F)
  | mult (l r : UExpr F)
  | div (l r : UExpr F)
  | rem (l r : UExpr F)
  | xor (l r : UExpr F)
  | and (l r : UExpr F)
  | or (l r : UExpr F)
  | leftShift (e by_ : UExpr F)
  | rightShift (e by_ : UExpr F)
  | not (e : UExpr F)
  | cond (c : BExpr F) (t e : UExpr F)
end

namespace UExpr
variable {F : Type _}
/-- `bitwidth()`, `zir/uint.rs:247-249`. -/
def width : UExpr F → ℕ | .mk w _ _ => w
/-- the `metadata` field -/
def info : UExpr F → Option (UMeta F) | .mk _ m _ => m
/-- `as_inner`, `zir/uint.rs:251-253`. -/
def inner : UExpr F → UInner F | .mk _ _ i => i
end UExpr

variable {F : Type _} [DecidableEq F]

mutual
/-- Derived `PartialEq` of `FieldElementExpression`. -/
def FExpr.beq : FExpr F → FExpr F → Bool
  | .value n, .value m => decide (n = m)
  | .ident x, .ident y => decide (x = y)
  | .select a i, .select b j => FExpr.beqL a b && i.beq j
  | .add a b, .add c d => a.beq c && b.beq d
  | .sub a b, .sub c d => a.beq c && b.beq d
  | .mult a b, .mult c d => a.beq c && b.beq d
  | .div a b, .div c d => a.beq c && b.beq d
  | .pow a b, .pow c d => a.beq c && b.beq d
  | .and a b, .and c d => a.beq c && b.beq d
  | .or a b, .or c d => a.beq c && b.beq d
  | .xor a b, .xor c d => a.beq c && b.beq d
  | .leftShift a b, .leftShift c d => a.beq c && b.beq d
  | .rightShift a b, .rightShift c d => a.beq c && b.beq d
  | .cond a b c, .cond d e f => a.beq d && (b.beq e && c.beq f)
  | _, _ => false
/-- Derived `PartialEq` of `Vec<FieldElementExpression>`. -/
def FExpr.beqL : List (FExpr F) → List (FExpr F) → Bool
  | [], [] => true
  | a :: l, b :: m => a.beq b && FExpr.beqL l m
  | _, _ => false
/-- Derived `PartialEq` of `BooleanExpression`. -/
def BExpr.beq : BExpr F → BExpr F → Bool
  | .value n, .value m => decide (n = m)
  | .ident x, .ident y => decide (x = y)
  | .select a i, .select b j => BExpr.beqL a b && i.beq j
  | .fieldLt a b, .fieldLt c d => a.beq c && b.beq d
  | .fieldLe a b, .fieldLe c d => a.beq c && b.beq d
  | .fieldEq a b, .fieldEq c d => a.beq c && b.beq d
  | .uintLt a b, .uintLt c d => a.beq c && b.beq d
  | .uintLe a b, .uintLe c d => a.beq c && b.beq d
  | .uintEq a b, .uintEq c d => a.beq c && b.beq d
  | .boolEq a b, .boolEq c d => a.beq c && b.beq d
  | .or a b, .or c d => a.beq c && b.beq d
  | .and a b, .and c d => a.beq c && b.beq d
  | .not a, .not b => a.beq b
  | .cond a b c, .cond d e f => a.beq d && (b.beq e && c.beq f)
  | _, _ => false
/-- Derived `PartialEq` of `Vec<BooleanExpression>`. -/
def BExpr.beqL : List (BExpr F) → List (BExpr F) → Bool
  | [], [] => true
  | a :: l, b :: m => a.beq b && BExpr.beqL l m
  | _, _ => false
/-- Derived `PartialEq` of `UExpression` (`zir/uint.rs:168-169`): bitwidth, metadata and expression. -/
def UExpr.beq : UExpr F → UExpr F → Bool
  | .mk w m i, .mk w' m' i' => decide (w = w') && (decide (m = m') && i.beq i')
/-- Derived `PartialEq` of `Vec<UExpression>`. -/
def UExpr.beqL : List (UExpr F) → List (UExpr F) → Bool
  | [], [] => true
  | a :: l, b :: m => a.beq b && UExpr.beqL l m
  | _, _ => false
/-- Derived `PartialEq` of `UExpressionInner` (`zir/uint.rs:178-179`). -/
def UInner.beq : UInner F → UInner F → Bool
  | .value n, .value m => decide (n = m)
  | .ident x, .ident y => decide (x = y)
  | .select a i, .select b j => UExpr.beqL a b && i.beq j
  | .add a b, .add c d => a.beq c && b.beq d
  | .sub a b, .sub c d => a.beq c && b.beq d
  | .mult a b, .mult c d => a.beq c && b.beq d
  | .div a b, .div c d => a.beq c && b.beq d
  | .rem a b, .rem c d => a.beq c && b.beq d
  | .xor a b, .xor c d => a.beq c && b.beq d
  | .and a b, .and c d => a.beq c && b.beq d
  | .or a b, .or c d => a.beq c && b.beq d
  | .leftShift a b, .leftShift c d => a.beq c && b.beq d
  | .rightShift a b, .rightShift c d => a.beq c && b.beq d
  | .not a, .not b => a.beq b
  | .cond a b c, .cond d e f => a.beq d && (b.beq e && c.beq f)
  | _, _ => false
end

/-- `enum ZirExpression`, `zir/mod.rs:592-600`. -/
inductive ZExpr (F : Type _) where
  | field (e : FExpr F)
  | bool (e : BExpr F)
  | uint (e : UExpr F)

/-- `enum Type`, `zir/types.rs`. -/
inductive ZType where
  | field | bool | uint (w : ℕ)
deriving DecidableEq, Repr

/-- `struct Parameter`, `zir/parameter.rs`: a typed identifier and whether it is private. -/
structure ZParam where
  id : ZId
  ty : ZType
  priv : Bool
deriving DecidableEq, Repr

/-- `enum FlatEmbed`, `common/embed.rs`, without the calls into external crates (`Sha256Round`,
`SnarkVerifyBls12377`, which are feature gated). -/
inductive Embed where
  | fieldToBoolUnsafe
  | uToBits (w : ℕ)
  | uFromBits (w : ℕ)
  | bitArrayLe
  | unpack
deriving DecidableEq, Repr

/-- `enum ZirAssemblyStatement`, `zir/mod.rs`. The right-hand side of an assignment is a function `f` computed by the
prover; `args` are its arguments in the enclosing scope. -/
inductive ZAsm (F Z : Type _) where
  | assignment (assignees : List ZId) (f : Z) (args : List ZId)
  | constraint (l r : FExpr F) (info : String)

/-- `enum ZirStatement`, `zir/mod.rs`. The error of an assertion is already converted (`common/error.rs:36-49`). -/
inductive ZStmt (F Z : Type _) where
  | ret (es : List (ZExpr F))
  | definition (x : ZId) (e : ZExpr F)
  | ifElse (c : BExpr F) (t e : List (ZStmt F Z))
  | assertion (e : BExpr F) (error : RuntimeError)
  | multiDef (xs : List ZId) (embed : Embed) (generics : List ℕ) (args : List (ZExpr F))
  | log (es : List (List (ZExpr F)))
  | assembly (ss : List (ZAsm F Z))

end Zok
