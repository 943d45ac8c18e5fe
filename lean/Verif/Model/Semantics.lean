import Verif.Model.TypedEq

/-
The type checker: expressions and statements of functions without generic parameters, `zokrates_core/src/semantics.rs`, and the conversion of integer literals,
`zokrates_ast/src/typed/integer.rs`. Calls, loops, ranges in selects, logs, assembly and modules are not modelled; there is one scope, that of the function, in which
the identifier of a variable is its name. As in the rest of the model, struct types are identified by their members. Sizes of arrays are literals: in the code they are
expressions of type `u32`, which constant propagation evaluates later.
-/

set_option linter.unusedVariables false

namespace Zok.Sem
open Typed Abi

/-- `-`, `+`, `!`. -/
inductive UnOp where
  | neg | pos | not
deriving DecidableEq, Repr

/-- Arithmetic and bitwise operators. -/
inductive BinOp where
  | add | sub | mul | div | rem | xor | band | bor
deriving DecidableEq, Repr

/-- `**`, `<<`, `>>`: the right operand is a `u32`. -/
inductive ShOp where
  | pow | shl | shr
deriving DecidableEq, Repr

/-- Comparisons. -/
inductive RelOp where
  | lt | le | gt | ge
deriving DecidableEq, Repr

mutual
/-- `Expression`, `zokrates_ast/src/untyped/mod.rs:597-640`, without calls and ranges. The members of an inline struct are two lists, of names and of values. -/
inductive SExpr where
  | int (n : ℕ)
  | fieldC (n : ℕ)
  | uintC (w : UW) (n : ℕ)
  | boolC (b : Bool)
  | ident (x : TId)
  | un (op : UnOp) (e : SExpr)
  | bin (op : BinOp) (l r : SExpr)
  | sh (op : ShOp) (l r : SExpr)
  | logic (op : BOp) (l r : SExpr)
  | rel (op : RelOp) (l r : SExpr)
  | eq (l r : SExpr)
  | cond (c a b : SExpr)
  | select (a i : SExpr)
  | element (e : SExpr) (i : ℕ)
  | member (e : SExpr) (m : Str)
  | array (es : List SSpread)
  | repeat_ (e count : SExpr)
  | struct (name : Str) (names : List Str) (es : List SExpr)
  | tuple (es : List SExpr)
/-- `SpreadOrExpression`, `untyped/mod.rs`. -/
inductive SSpread where
  | expr (e : SExpr)
  | spread (e : SExpr)
end

mutual
/-- `TypedExpression`, `zokrates_ast/src/typed/mod.rs`, during the check: `IntExpression` (`typed/integer.rs:262-343`) included. The operators of the different expression
types (`FieldElementExpression::Add`, `IntExpression::Add`, …) are one constructor, which carries the type. -/
inductive KExpr (F : Type) where
  | inum (n : ℕ)
  | fval (n : F)
  | bval (b : Bool)
  | uval (w : UW) (n : ℕ)
  | ident (x : TId) (t : CType)
  | un (op : UnOp) (t : CType) (e : KExpr F)
  | bin (op : BinOp) (t : CType) (l r : KExpr F)
  | sh (op : ShOp) (t : CType) (l r : KExpr F)
  | logic (op : BOp) (l r : KExpr F)
  | cmp (op : COp) (l r : KExpr F)
  | eq (l r : KExpr F)
  | cond (t : CType) (c a b : KExpr F)
  | select (t : CType) (a i : KExpr F)
  | element (t : CType) (e : KExpr F) (i : ℕ)
  | member (t : CType) (e : KExpr F) (m : Str)
  | array (t : CType) (size : ℕ) (es : List (KSpread F))
  | repeat_ (t : CType) (size : ℕ) (e count : KExpr F)
  | struct (ms : List (Str × CType)) (es : List (KExpr F))
  | tuple (ts : List CType) (es : List (KExpr F))
/-- `TypedExpressionOrSpread`, `typed/mod.rs`. -/
inductive KSpread (F : Type) where
  | expr (e : KExpr F)
  | spread (e : KExpr F)
end

variable {F : Type}

/-- `get_type`, `typed/mod.rs`. -/
def KExpr.ty : KExpr F → CType
  | .inum _ => .int
  | .fval _ => .field
  | .bval _ | .logic _ _ _ | .cmp _ _ _ | .eq _ _ => .bool
  | .uval w _ => .uint w
  | .ident _ t | .un _ t _ | .bin _ t _ _ | .sh _ t _ _ | .cond t _ _ _ | .select t _ _ | .element t _ _ | .member t _ _ => t
  | .array t n _ | .repeat_ t n _ _ => .array n t
  | .struct ms _ => .struct ms
  | .tuple ts _ => .tuple ts

/-- The type of the elements an element or spread adds to an array: `get_type` of `TypedExpressionOrSpread`, `typed/mod.rs`. -/
def KSpread.ty : KSpread F → CType
  | .expr e => e.ty
  | .spread e => match e.ty with
    | .array _ t => t
    | t => t

/-- `size` of `TypedExpressionOrSpread`, `typed/mod.rs:446-451`. -/
def KSpread.size : KSpread F → ℕ
  | .expr _ => 1
  | .spread e => match e.ty with
    | .array n _ => n
    | _ => 0

mutual
/-- A type without the sizes of its arrays: `get_common_pattern` and most targets of conversions do not compare them (`typed/integer.rs:86-101`,
`PartialEq` of `DeclarationConstant`, `typed/types.rs:182-198`). -/
def unsized : CType → CType
  | .array _ t => .array 0 (unsized t)
  | .struct ms => .struct (unsizedM ms)
  | .tuple ts => .tuple (unsizedL ts)
  | t => t
/-- For every element. -/
def unsizedL : List CType → List CType
  | [] => []
  | t :: ts => unsized t :: unsizedL ts
/-- For every member. -/
def unsizedM : List (Str × CType) → List (Str × CType)
  | [] => []
  | (m, t) :: ts => (m, unsized t) :: unsizedM ts
end

/-- Comparison of the type an expression has with a type it shall have: with sizes if the latter comes from a declaration, without if it is a pattern. -/
def eqTy (exact : Bool) (a b : CType) : Bool := if exact then decide (a = b) else decide (unsized a = unsized b)

/-- The outcome of a check which does not succeed: an error message, or a panic of the compiler. -/
inductive CErr where
  | reject | panic
deriving DecidableEq, Repr

/-- Types with `<=` and the conversion of integers: `FieldElementExpression::try_from_int` and `UExpression::try_from_int`, `typed/integer.rs:519-622` and `643-760`. -/
def UnOp.okFor : UnOp → CType → Bool
  | .not, .field => false
  | _, _ => true
/-- There is no `%` of field elements. -/
def BinOp.okFor : BinOp → CType → Bool
  | .rem, .field => false
  | _, _ => true

variable {p : ℕ}

/-- `try_from_int` for `field` and unsigned integers, `typed/integer.rs:519-622`, `643-760`. A select from an array of integers is never built, see `check`. -/
def castInt (t : CType) : KExpr (ZMod p) → Option (KExpr (ZMod p))
  | .inum n => match t with
    | .field => if n < p then some (.fval n) else none
    | .uint w => if n < 2 ^ w.bits then some (.uval w n) else none
    | _ => none
  | .un op .int e => if op.okFor t then (castInt t e).bind fun e' => some (.un op t e') else none
  | .bin op .int l r => if op.okFor t then (castInt t l).bind fun l' => (castInt t r).bind fun r' => some (.bin op t l' r') else none
  | .sh .shl .int l r => (castInt t l).bind fun l' => some (.sh .shl t l' r)
  | .sh .shr .int l r => (castInt t l).bind fun l' => some (.sh .shr t l' r)
  | .cond .int c a b => (castInt t a).bind fun a' => (castInt t b).bind fun b' => some (.cond t c a' b')
  | _ => none

/-- `FieldElementExpression::try_from_typed`, `BooleanExpression::try_from_typed`, `UExpression::try_from_typed`, `typed/integer.rs:496-517`, `627-641`. -/
def scalarTo (e : KExpr (ZMod p)) (t : CType) : Option (KExpr (ZMod p)) := match t, e.ty with
  | .field, .field => some e
  | .field, .int => castInt .field e
  | .bool, .bool => some e
  | .uint w, .uint w' => if w = w' then some e else none
  | .uint w, .int => castInt (.uint w) e
  | _, _ => none

/-- An array, struct or tuple which is not written inline keeps its type, which has to fit: the last cases of `try_from_int`, `typed/integer.rs:836-843`, … -/
def keepAs (exact : Bool) (e : KExpr (ZMod p)) (t : CType) : Option (KExpr (ZMod p)) := match e.ty, t with
  | .array _ t0, .array _ t1 => if eqTy exact t1 t0 then some e else none
  | .struct ms0, .struct ms1 => if ms0.length = ms1.length ∧ ((ms0.map Prod.snd).zip (ms1.map Prod.snd)).all (fun q => eqTy exact q.2 q.1) then some e else none
  | .tuple ts0, .tuple ts1 => if ts0.length = ts1.length ∧ (ts0.zip ts1).all (fun q => eqTy exact q.2 q.1) then some e else none
  | _, _ => none

mutual
/-- `align_to_type`, `typed/integer.rs:233-260`, and `try_from_int` of arrays, structs and tuples, `typed/integer.rs:776-943`. -/
def alignTo (exact : Bool) : KExpr (ZMod p) → CType → Option (KExpr (ZMod p))
  | .array t0 n es, t => match t with
    | .array _ .int => match es with
      | [] => none
      | e :: _ => some (.array e.ty n es)
    | .array n1 t1 => match alignS exact n1 es t1 with
      | some (e :: es') => some (.array e.ty n (e :: es'))
      | _ => none
    | _ => none
  | .repeat_ t0 n e c, t => match t with
    | .array _ .int => some (.repeat_ .int n e c)
    | .array _ t1 => (alignTo exact e t1).bind fun e' => some (.repeat_ e'.ty n e' c)
    | _ => none
  | .struct ms es, t => match t with
    | .struct ms1 => if ms.length = ms1.length then (alignL exact es (ms1.map Prod.snd)).bind fun es' => some (.struct ms es') else none
    | _ => none
  | .tuple ts es, t => match t with
    | .tuple ts1 => if ts.length = ts1.length then (alignL exact es ts1).bind fun es' => some (.tuple (es'.map KExpr.ty) es') else none
    | _ => none
  | e, t => match t with
    | .array _ _ | .struct _ | .tuple _ => keepAs exact e t
    | _ => scalarTo e t
/-- Every expression to its type. -/
def alignL (exact : Bool) : List (KExpr (ZMod p)) → List CType → Option (List (KExpr (ZMod p)))
  | e :: es, t :: ts => (alignTo exact e t).bind fun e' => (alignL exact es ts).bind fun es' => some (e' :: es')
  | _, _ => some []
/-- Every element or spread to the type of the elements of an array: `TypedExpressionOrSpread::align_to_type`, `typed/integer.rs:28-41`. -/
def alignS (exact : Bool) (n : ℕ) : List (KSpread (ZMod p)) → CType → Option (List (KSpread (ZMod p)))
  | [], _ => some []
  | .expr e :: es, t => (alignTo exact e t).bind fun e' => (alignS exact n es t).bind fun es' => some (.expr e' :: es')
  | .spread e :: es, t => (alignTo exact e (.array n t)).bind fun e' => (alignS exact n es t).bind fun es' => some (.spread e' :: es')
end

mutual
/-- `get_common_pattern`, `typed/integer.rs:45-141`: `panic` for two structs whose members, compared in order, have no common type (`unreachable!`). -/
def common : CType → CType → Except CErr CType
  | .bool, .bool => .ok .bool
  | .int, .field => .ok .field
  | .int, .uint w => .ok (.uint w)
  | .field, .int => .ok .field
  | .uint w, .int => .ok (.uint w)
  | .field, .field => .ok .field
  | .uint w, .uint w' => if w = w' then .ok (.uint w) else .error .reject
  | .array _ t, .array _ u => do .ok (.array 0 (← common t u))
  | .struct ms, .struct ns => do .ok (.struct (← commonM ms ns))
  | .tuple ts, .tuple us => do .ok (.tuple (← commonL ts us))
  | _, _ => .error .reject
/-- Component by component, as long as there are components on both sides. -/
def commonL : List CType → List CType → Except CErr (List CType)
  | t :: ts, u :: us => do
    let c ← common t u
    .ok (c :: (← commonL ts us))
  | _, _ => .ok []
/-- Member by member: there is no error but only a panic. -/
def commonM : List (Str × CType) → List (Str × CType) → Except CErr (List (Str × CType))
  | (m, t) :: ts, (_, u) :: us => match common t u with
    | .ok c => do .ok ((m, c) :: (← commonM ts us))
    | .error _ => .error .panic
  | _, _ => .ok []
end

/-- An option as an outcome: nothing is an error message. -/
def orReject {α : Type} : Option α → Except CErr α
  | some a => .ok a
  | none => .error .reject

/-- `align_without_integers`, `typed/integer.rs:148-231`. -/
def alignPair (l r : KExpr (ZMod p)) : Except CErr (KExpr (ZMod p) × KExpr (ZMod p)) := match l.ty, r.ty with
  | .int, .field => do .ok (← orReject (castInt .field l), r)
  | .field, .int => do .ok (l, ← orReject (castInt .field r))
  | .int, .uint w => do .ok (← orReject (castInt (.uint w) l), r)
  | .uint w, .int => do .ok (l, ← orReject (castInt (.uint w) r))
  | .array _ _, .array _ _ | .struct _, .struct _ | .tuple _, .tuple _ => do
    let t ← common l.ty r.ty
    let l' ← orReject (alignTo false l t)
    let r' ← orReject (alignTo false r t)
    .ok (l', r')
  | .uint _, .uint _ | .bool, .bool | .field, .field | .int, .int => .ok (l, r)
  | _, _ => .error .reject

/-- The types behind the alignment of `+`, `-`, `*`, `/`, `%`, `&`, `|`, `^` in `check_expression`, `semantics.rs:2495-2661`, `3604-3712`. There is no `%` of integer
literals either. -/
def binTy (op : BinOp) (t u : CType) : Except CErr CType := match t, u with
  | .int, .int => if op = .rem then .error .reject else .ok .int
  | .field, .field => if op = .rem then .error .reject else .ok .field
  | .uint w, .uint w' => if w = w' then .ok (.uint w) else .error .reject
  | _, _ => .error .reject

/-- The literal an array size is: other sizes are left to constant propagation by the code, and an error here. -/
def sizeLit : KExpr (ZMod p) → Option ℕ
  | .uval .b32 n => some n
  | _ => none

/-- The types of a comparison, `semantics.rs:2825-3075`. -/
def relTy (t u : CType) : Bool := match t, u with
  | .field, .field => true
  | .uint w, .uint w' => decide (w = w')
  | _, _ => false

/-- The types of `==`, `semantics.rs:2923-2981`. -/
def eqTys (t u : CType) : Bool := match t, u with
  | .field, .field | .bool, .bool | .array _ _, .array _ _ | .struct _, .struct _ | .tuple _, .tuple _ => true
  | .uint w, .uint w' => decide (w = w')
  | _, _ => false

/-- The types of the branches of a conditional, `semantics.rs:2757-2786`: those of unsigned integers are not compared, but have been aligned to a common width only if one
is a literal. -/
def condTys (t u : CType) : Bool := match t, u with
  | .field, .field | .bool, .bool | .array _ _, .array _ _ | .struct _, .struct _ | .tuple _, .tuple _ | .uint _, .uint _ | .int, .int => true
  | _, _ => false

/-- Struct declarations: the members of a struct. -/
abbrev Decls := Str → Option (List (Str × CType))
/-- The scope: the types of the variables. -/
abbrev Scope := TId → Option CType

/-- The values of the members of an inline struct in the order of the declaration, each aligned to its type, `semantics.rs:3411-3448`. -/
def pickMembers (names : List Str) (ks : List (KExpr (ZMod p))) : List (Str × CType) → Except CErr (List (KExpr (ZMod p)))
  | [] => .ok []
  | (m, t) :: ms => match (names.zip ks).lookup m with
    | none => .error .reject
    | some k => do
      let k' ← orReject (alignTo true k t)
      .ok (k' :: (← pickMembers names ks ms))

mutual
/-- `check_expression`, `semantics.rs:2453-3707`. A select or element of type `int` is a panic (`unreachable!`, `semantics.rs:3191`, `3215`), as is a literal with a
suffix which does not fit (`untyped/from_ast.rs:697-745`). The members of an inline struct are checked in the order of the source here. -/
def check (D : Decls) (G : Scope) : SExpr → Except CErr (KExpr (ZMod p))
  | .int n => .ok (.inum n)
  | .fieldC n => if n < p then .ok (.fval n) else .error .reject
  | .uintC w n => if n < 2 ^ w.bits then .ok (.uval w n) else .error .panic
  | .boolC b => .ok (.bval b)
  | .ident x => match G x with
    | some t => .ok (.ident x t)
    | none => .error .reject
  | .un op e => do
    let k ← check D G e
    match op, k.ty with
    | _, .int => .ok (.un op .int k)
    | _, .uint w => .ok (.un op (.uint w) k)
    | .neg, .field => .ok (.un .neg .field k)
    | .pos, .field => .ok (.un .pos .field k)
    | .not, .bool => .ok (.un .not .bool k)
    | _, _ => .error .reject
  | .bin op l r => do
    let k1 ← check D G l
    let k2 ← check D G r
    let (a, b) ← alignPair k1 k2
    let t ← binTy op a.ty b.ty
    .ok (.bin op t a b)
  | .sh .pow l r => do
    let k1 ← check D G l
    let k2 ← check D G r
    let a ← orReject (scalarTo k1 .field)
    let b ← orReject (scalarTo k2 (.uint .b32))
    .ok (.sh .pow .field a b)
  | .sh op l r => do
    let k1 ← check D G l
    let k2 ← check D G r
    let b ← orReject (scalarTo k2 (.uint .b32))
    match k1.ty with
    | .int => .ok (.sh op .int k1 b)
    | .uint w => .ok (.sh op (.uint w) k1 b)
    | .field => .ok (.sh op .field k1 b)
    | _ => .error .reject
  | .logic .and l r => do
    let k1 ← check D G l
    let k2 ← check D G r
    let (a, b) ← alignPair k1 k2
    match a.ty, b.ty with
    | .int, .int => .ok (.bin .band .int a b)
    | .bool, .bool => .ok (.logic .and a b)
    | _, _ => .error .reject
  | .logic .or l r => do
    let k1 ← check D G l
    let k2 ← check D G r
    match k1.ty, k2.ty with
    | .bool, .bool => .ok (.logic .or k1 k2)
    | _, _ => .error .reject
  | .rel op l r => do
    let k1 ← check D G l
    let k2 ← check D G r
    let (a, b) ← alignPair k1 k2
    if relTy a.ty b.ty then .ok (match op with
      | .lt => .cmp .lt a b
      | .le => .cmp .le a b
      | .gt => .cmp .lt b a
      | .ge => .cmp .le b a)
    else .error .reject
  | .eq l r => do
    let k1 ← check D G l
    let k2 ← check D G r
    let (a, b) ← alignPair k1 k2
    if eqTys a.ty b.ty then .ok (.eq a b) else .error .reject
  | .cond c l r => do
    let k ← check D G c
    let k1 ← check D G l
    let k2 ← check D G r
    let (a, b) ← alignPair k1 k2
    match k.ty with
    | .bool => if condTys a.ty b.ty then .ok (.cond a.ty k a b) else .error .reject
    | _ => .error .reject
  | .select a i => do
    let k1 ← check D G a
    let k2 ← check D G i
    let j ← orReject (scalarTo k2 (.uint .b32))
    match k1.ty with
    | .array _ .int => .error .panic
    | .array _ t => .ok (.select t k1 j)
    | _ => .error .reject
  | .element e i => do
    let k ← check D G e
    match k.ty with
    | .tuple ts => match ts[i]? with
      | some .int => .error .panic
      | some t => .ok (.element t k i)
      | none => .error .reject
    | _ => .error .reject
  | .member e m => do
    let k ← check D G e
    match k.ty with
    | .struct ms => match ms.lookup m with
      | some .int => .error .panic
      | some t => .ok (.member t k m)
      | none => .error .reject
    | _ => .error .reject
  | .array es => do
    let ks ← checkS D G es
    match ks with
    | [] => .error .reject
    | k :: ks' =>
      let t := (((k :: ks').map KSpread.ty).find? (fun t => t ≠ .int)).getD .int
      match t with
      | .int => .ok (.array .int ((((k :: ks').map KSpread.size).sum) % 2 ^ 32) (k :: ks'))
      | t => do
        let es' ← orReject (alignS true 0 (k :: ks') t)
        .ok (.array t (((es'.map KSpread.size).sum) % 2 ^ 32) es')
  | .repeat_ e count => do
    let k ← check D G e
    let c ← check D G count
    let c' ← orReject (scalarTo c (.uint .b32))
    let n ← orReject (sizeLit c')
    .ok (.repeat_ k.ty n k c')
  | .struct name names es => match D name with
    | none => .error .reject
    | some ms => if ms.length ≠ names.length then .error .reject else do
      let ks ← checkL D G es
      let ks' ← pickMembers names ks ms
      .ok (.struct ms ks')
  | .tuple es => do
    let ks ← checkL D G es
    .ok (.tuple (ks.map KExpr.ty) ks)
/-- Expressions, in order. -/
def checkL (D : Decls) (G : Scope) : List SExpr → Except CErr (List (KExpr (ZMod p)))
  | [] => .ok []
  | e :: es => do
    let k ← check D G e
    .ok (k :: (← checkL D G es))
/-- `check_spread_or_expression`, `semantics.rs:2274-2302`. -/
def checkS (D : Decls) (G : Scope) : List SSpread → Except CErr (List (KSpread (ZMod p)))
  | [] => .ok []
  | .expr e :: es => do
    let k ← check D G e
    .ok (.expr k :: (← checkS D G es))
  | .spread e :: es => do
    let k ← check D G e
    match k.ty with
    | .array _ _ => do .ok (.spread k :: (← checkS D G es))
    | _ => .error .reject
end

/-! ### Expressions without integer literals of no type, as expressions of the model of the rest of the compiler -/

/-- The operators of `FieldElementExpression`. -/
def BinOp.toF : BinOp → Option FOp
  | .add => some .add
  | .sub => some .sub
  | .mul => some .mult
  | .div => some .div
  | .rem => none
  | .xor => some .xor
  | .band => some .and
  | .bor => some .or
/-- The operators of `UExpressionInner`. -/
def BinOp.toU : BinOp → UOp
  | .add => .add
  | .sub => .sub
  | .mul => .mult
  | .div => .div
  | .rem => .rem
  | .xor => .xor
  | .band => .and
  | .bor => .or

mutual
/-- The same expression in the syntax of `Model/Typed.lean`, in which there are no integers without type: `none` if there are any. -/
def toT : KExpr (ZMod p) → Option (TExpr (ZMod p))
  | .inum _ => none
  | .fval n => some (.fval n)
  | .bval b => some (.bval b)
  | .uval w n => some (.uval w n)
  | .ident x t => some (.ident x t)
  | .un op t e => (toT e).bind fun e' => match t, op with
    | .field, .neg => some (.fneg e')
    | .field, .pos => some (.fpos e')
    | .uint w, .neg => some (.uneg w e')
    | .uint w, .pos => some (.upos w e')
    | .uint w, .not => some (.unot w e')
    | .bool, .not => some (.bnot e')
    | _, _ => none
  | .bin op t l r => (toT l).bind fun l' => (toT r).bind fun r' => match t with
    | .field => op.toF.map fun o => .fbin o l' r'
    | .uint w => some (.ubin w op.toU l' r')
    | _ => none
  | .sh op t l r => (toT l).bind fun l' => (toT r).bind fun r' => match t, op with
    | .field, .pow => some (.fubin .pow l' r')
    | .field, .shl => some (.fubin .shl l' r')
    | .field, .shr => some (.fubin .shr l' r')
    | .uint w, .shl => some (.ubin w .shl l' r')
    | .uint w, .shr => some (.ubin w .shr l' r')
    | _, _ => none
  | .logic op l r => (toT l).bind fun l' => (toT r).bind fun r' => some (.bbin op l' r')
  | .cmp op l r => (toT l).bind fun l' => (toT r).bind fun r' => match l.ty with
    | .field => some (.fcmp op l' r')
    | _ => some (.ucmp op l' r')
  | .eq l r => (toT l).bind fun l' => (toT r).bind fun r' => some (.eq l' r')
  | .cond t c a b => (toT c).bind fun c' => (toT a).bind fun a' => (toT b).bind fun b' => some (.cond t c' a' b')
  | .select t a i => (toT a).bind fun a' => (toT i).bind fun i' => some (.select t a' i')
  | .element t e i => (toT e).bind fun e' => some (.element t e' i)
  | .member t e m => (toT e).bind fun e' => some (.member t e' m)
  | .array t n es => (toTS es).bind fun es' => some (.array t n es')
  | .repeat_ t n e c => (toT e).bind fun e' => (toT c).bind fun c' => some (.repeat_ t n e' c')
  | .struct ms es => (toTL es).bind fun es' => some (.struct ms es')
  | .tuple ts es => (toTL es).bind fun es' => some (.tuple ts es')
/-- For lists. -/
def toTL : List (KExpr (ZMod p)) → Option (List (TExpr (ZMod p)))
  | [] => some []
  | e :: es => (toT e).bind fun e' => (toTL es).bind fun es' => some (e' :: es')
/-- For elements and spreads. -/
def toTS : List (KSpread (ZMod p)) → Option (List (TSpread (ZMod p)))
  | [] => some []
  | .expr e :: es => (toT e).bind fun e' => (toTS es).bind fun es' => some (.expr e' :: es')
  | .spread e :: es => (toT e).bind fun e' => (toTS es).bind fun es' => some (.spread e' :: es')
end

/-! ### Statements and functions -/

/-- `Assignee`, `untyped/mod.rs`, without ranges. -/
inductive SAssignee where
  | ident (x : TId)
  | select (a : SAssignee) (i : SExpr)
  | member (a : SAssignee) (m : Str)
  | element (a : SAssignee) (i : ℕ)

/-- `Statement`, `untyped/mod.rs`, without loops, logs and assembly. -/
inductive SStmt where
  | definition (x : TId) (t : CType) (mutable : Bool) (e : SExpr)
  | assignment (a : SAssignee) (e : SExpr)
  | assertion (e : SExpr) (error : RuntimeError)
  | ret (e : SExpr)

/-- The scope: type and mutability of the variables. -/
abbrev SVars := TId → Option (CType × Bool)
/-- The types. -/
def SVars.types (V : SVars) : Scope := fun x => (V x).map Prod.fst
/-- Insertion into the scope: a variable of the same name is replaced. -/
def SVars.insert (V : SVars) (x : TId) (t : CType) (m : Bool) : SVars := fun y => if y = x then some (t, m) else V y

/-- An expression without integers of no type: the check does not exclude that one is left (`(1, x).1`), which is a panic of the next pass (`fold_int_expression`,
`zokrates_ast/src/typed/folder.rs:1258-1263`). -/
def typed (k : KExpr (ZMod p)) : Except CErr (TExpr (ZMod p)) := match toT k with
  | some e => .ok e
  | none => .error .panic

/-- `check_assignee`, `semantics.rs:2151-2272`. -/
def checkAssignee (D : Decls) (V : SVars) : SAssignee → Except CErr (TAssignee (ZMod p))
  | .ident x => match V x with
    | some (t, true) => .ok (.ident x t)
    | _ => .error .reject
  | .select a i => do
    let a' ← checkAssignee D V a
    match a'.ty with
    | some (.array _ _) => do
      let k ← check D V.types i
      let k' ← orReject (scalarTo k (.uint .b32))
      let j ← typed k'
      .ok (.select a' j)
    | _ => .error .reject
  | .member a m => do
    let a' ← checkAssignee D V a
    match a'.ty with
    | some (.struct ms) => if (ms.lookup m).isSome then .ok (.member a' m) else .error .reject
    | _ => .error .reject
  | .element a i => do
    let a' ← checkAssignee D V a
    match a'.ty with
    | some (.tuple ts) => if i < ts.length then .ok (.element a' i) else .error .reject
    | _ => .error .reject

/-- `check_statement`, `semantics.rs:1889-2149`: the right side of a definition is checked in the scope in front of it. -/
def checkStmt (D : Decls) (r : CType) (V : SVars) : SStmt → Except CErr (SVars × TStmt (ZMod p))
  | .definition x t m e => do
    let k ← check D V.types e
    let k' ← orReject (alignTo true k t)
    let e' ← typed k'
    .ok (V.insert x t m, .definition (.ident x t) e')
  | .assignment a e => do
    let a' ← checkAssignee D V a
    let k ← check D V.types e
    match a'.ty with
    | some t => do
      let k' ← orReject (alignTo true k t)
      let e' ← typed k'
      .ok (V, .definition a' e')
    | none => .error .panic
  | .assertion e err => do
    let k ← check D V.types e
    match k.ty with
    | .bool => do
      let e' ← typed k
      .ok (V, .assertion e' err)
    | _ => .error .reject
  | .ret e => do
    let k ← check D V.types e
    let k' ← orReject (alignTo true k r)
    if k'.ty = r then do
      let e' ← typed k'
      .ok (V, .ret e')
    else .error .reject

/-- Statement by statement. -/
def checkStmts (D : Decls) (r : CType) (V : SVars) : List SStmt → Except CErr (List (TStmt (ZMod p)))
  | [] => .ok []
  | s :: ss => do
    let (V', s') ← checkStmt D r V s
    .ok (s' :: (← checkStmts D r V' ss))

/-- A function without generic parameters. -/
structure SFun where
  params : List (TParam × Bool)
  body : List SStmt
  ret : CType

/-- A `return` statement. -/
def SStmt.isRet : SStmt → Bool
  | .ret _ => true
  | _ => false

/-- The parameters in the scope. -/
def SVars.ofParams : List (TParam × Bool) → SVars → SVars
  | [], V => V
  | (q, m) :: qs, V => SVars.ofParams qs (V.insert q.id q.ty m)

/-- `check_function`, `semantics.rs:1100-1255`: the names of the parameters are distinct, and there is exactly one `return`, somewhere (a function which returns the empty
tuple gets one). -/
def checkFun (D : Decls) (f : SFun) : Except CErr (TFun (ZMod p)) :=
  if (f.params.map fun q => q.1.id).Nodup then
    if (f.body.filter SStmt.isRet).length = 1 then do
      let body ← checkStmts D f.ret (SVars.ofParams f.params fun _ => none) f.body
      .ok { params := f.params.map Prod.fst, body := body, ret := f.ret }
    else if (f.body.filter SStmt.isRet).length = 0 ∧ f.ret = .tuple [] then do
      let body ← checkStmts D f.ret (SVars.ofParams f.params fun _ => none) f.body
      .ok { params := f.params.map Prod.fst, body := body ++ [.ret (.tuple [] [])], ret := f.ret }
    else .error .reject
  else .error .reject

end Zok.Sem
