import Verif.Model.TypedEq
import Verif.Model.Checkers
import Verif.Model.Field

/-
`zokrates_analysis/src/propagation.rs:1-1530`: constant propagation on typed programs in static single assignment form, and `into_canonical_constant`,
`zokrates_ast/src/typed/mod.rs:3492-3695`. Expressions of type `int`, blocks, assembly statements and loops are not modelled; function calls have been inlined.
Panics are errors here.
-/

namespace Zok.Typed
open Abi
variable {F : Type} {p : ℕ}

/-- `Error`, `propagation.rs:30-37`, without the text, and the panics. -/
inductive PErr where
  /-- types which should agree do not -/
  | type
  | assertionFailed (e : RuntimeError)
  | invalidValue
  | outOfBounds (i n : ℕ)
  | divisionByZero
  /-- panic: division of the integers `v1 / v2`, `v1 % v2` by zero, `propagation.rs:754`, `:775` -/
  | uintDivision
  /-- panic (or, in release mode, a wrong result): a shift of a `u128` by 128 or more, `propagation.rs:795`, `:810` -/
  | shift
  /-- panic: `T::try_from(..).unwrap()`, the result of an operation on bits is not below the modulus, `propagation.rs:965-1097` -/
  | notInField
  /-- panic: a slice of an array other than an array value is put in canonical form, `typed/mod.rs:3549`, `:3594` -/
  | nestedSlice
  /-- panic: `assert!(self.constants.insert(..).is_none())`, `propagation.rs:311` -/
  | redefined
  /-- panic: the program is not well-typed -/
  | malformed
deriving DecidableEq

/-- `Constants`, `propagation.rs:27`. -/
abbrev Consts (F : Type) := TId → Option (TExpr F)

/-- `HashMap::insert`. -/
def Consts.insert (C : Consts F) (x : TId) (c : TExpr F) : Consts F := fun y => if y = x then some c else C y
/-- `HashMap::remove`. -/
def Consts.remove (C : Consts F) (x : TId) : Consts F := fun y => if y = x then none else C y

/-! ### Literals and values -/

/-- `FieldElementExpression::Value`. -/
def TExpr.litF : TExpr F → Option F
  | .fval n => some n
  | _ => none
/-- `BooleanExpression::Value`. -/
def TExpr.litB : TExpr F → Option Bool
  | .bval b => some b
  | _ => none
/-- `UExpressionInner::Value`. -/
def TExpr.litU : TExpr F → Option ℕ
  | .uval _ n => some n
  | _ => none
/-- `ArrayExpressionInner::Identifier`. -/
def TExpr.identOf : TExpr F → Option (TId × CType)
  | .ident x t => some (x, t)
  | _ => none
/-- `ArrayExpressionInner::Value`. -/
def TExpr.arrayOf : TExpr F → Option (List (TSpread F))
  | .array _ _ es => some es
  | _ => none
/-- `StructExpressionInner::Value`, with the type. -/
def TExpr.structOf : TExpr F → Option (List (Str × CType) × List (TExpr F))
  | .struct ms es => some (ms, es)
  | _ => none
/-- `TupleExpressionInner::Value`. -/
def TExpr.tupleOf : TExpr F → Option (List (TExpr F))
  | .tuple _ es => some es
  | _ => none
/-- The size of an array type. -/
def sizeOf? : CType → Option ℕ
  | .array n _ => some n
  | _ => none

mutual
/-- `into_canonical_constant`, `typed/mod.rs:3525-3695`: array values without spreads. The elements of a constant array. -/
def canonA : TExpr F → Except PErr (List (TExpr F))
  | .array _ _ es => canonS es
  | .slice _ _ (.array _ _ es) (.uval _ l) (.uval _ h) => do
    let cs ← canonS es
    if h < l then .error .malformed else .ok ((cs.drop l).take (h - l))
  | .slice _ _ _ _ _ => .error .nestedSlice
  | .repeat_ _ _ e (.uval _ n) => do
    let c ← canon e
    .ok (List.replicate n c)
  | _ => .error .malformed
/-- A constant in canonical form, `typed/mod.rs:3565-3610` for arrays. -/
def canon : TExpr F → Except PErr (TExpr F)
  | .fval n => .ok (.fval n)
  | .bval b => .ok (.bval b)
  | .uval w n => .ok (.uval w n)
  | .array t n es => do
    let cs ← canonS es
    .ok (.array t n (cs.map .expr))
  | .slice t n (.array _ _ es) (.uval _ l) (.uval _ h) => do
    let cs ← canonS es
    if h < l then .error .malformed else .ok (.array t n (((cs.drop l).take (h - l)).map .expr))
  | .slice _ _ _ _ _ => .error .nestedSlice
  | .repeat_ t n e (.uval _ k) => do
    let c ← canon e
    .ok (.array t n ((List.replicate k c).map .expr))
  | .struct ms es => do
    let cs ← canonL es
    .ok (.struct ms cs)
  | .tuple ts es => do
    let cs ← canonL es
    .ok (.tuple ts cs)
  | _ => .error .malformed
/-- For the members of structs and tuples. -/
def canonL : List (TExpr F) → Except PErr (List (TExpr F))
  | [] => .ok []
  | e :: es => do
    let c ← canon e
    let cs ← canonL es
    .ok (c :: cs)
/-- `into_canonical_constant_aux`, `typed/mod.rs:3526-3568`, for all elements. -/
def canonS : List (TSpread F) → Except PErr (List (TExpr F))
  | [] => .ok []
  | .expr e :: es => do
    let c ← canon e
    let cs ← canonS es
    .ok (c :: cs)
  | .spread e :: es => do
    let c ← canonA e
    let cs ← canonS es
    .ok (c ++ cs)
end

mutual
/-- `expression_at_aux`, `typed/mod.rs:1733-1761`, for the array of a spread: `t` is the type of its elements. -/
def atomsA (t : CType) : TExpr F → List (TExpr F)
  | .array _ _ es => atomsS t es
  | e => (List.range ((sizeOf? e.ty).getD 0)).map fun i => .select t e (.uval .b32 i)
/-- `expression_at_aux` for all elements of an array value. -/
def atomsS (t : CType) : List (TSpread F) → List (TExpr F)
  | [] => []
  | .expr e :: es => e :: atomsS t es
  | .spread e :: es => atomsA t e ++ atomsS t es
end

/-- `...[a, b]` becomes `a, b`, `propagation.rs:1266-1275`. -/
def inlineSpread : TSpread F → List (TSpread F)
  | .expr e => [.expr e]
  | .spread e => match e.arrayOf with
    | some es => es
    | none => [.spread e]

/-- Not a spread of an empty array, `propagation.rs:1277-1293`. -/
def notEmptySpread : TSpread F → Bool
  | .expr _ => true
  | .spread e => match sizeOf? e.ty with
    | some 0 => false
    | _ => true

/-- The elements of an array value behind their fold, `propagation.rs:1259-1295`. -/
def simplifyS (es : List (TSpread F)) : List (TSpread F) := (es.flatMap inlineSpread).filter notEmptySpread

/-! ### Operators, whose operands have been folded -/

/-- `T::try_from(n).unwrap()`, `zokrates_field/src/lib.rs:376-390`. -/
def ofNat? (n : ℕ) : Except PErr (TExpr (ZMod p)) := if n < p then .ok (.fval (n : ZMod p)) else .error .notInField

/-- `propagation.rs:894-941`, `:965-1025`. -/
def foldF (op : FOp) (l r : TExpr (ZMod p)) : Except PErr (TExpr (ZMod p)) :=
  match op with
  | .add => match l.litF, r.litF with
    | some a, some b => .ok (.fval (a + b))
    | _, _ => .ok (.fbin .add l r)
  | .sub => match l.litF, r.litF with
    | some a, some b => .ok (.fval (a - b))
    | _, _ => .ok (.fbin .sub l r)
  | .mult => match l.litF, r.litF with
    | some a, some b => .ok (.fval (a * b))
    | _, _ => .ok (.fbin .mult l r)
  | .div => match l.litF, r.litF with
    | some a, some b => if b = 0 then .error .divisionByZero else if b = 1 then .ok l else .ok (.fval (a * b⁻¹))
    | none, some b => if b = 0 then .error .divisionByZero else if b = 1 then .ok l else .ok (.fbin .div l r)
    | _, none => .ok (.fbin .div l r)
  | .xor => match l.litF, r.litF with
    | some a, some b => ofNat? (a.val ^^^ b.val)
    | some a, none => if a = 0 then .ok r else if l = r then .ok (.fval 0) else .ok (.fbin .xor l r)
    | none, some b => if b = 0 then .ok l else if l = r then .ok (.fval 0) else .ok (.fbin .xor l r)
    | none, none => if l = r then .ok (.fval 0) else .ok (.fbin .xor l r)
  | .and => match l.litF, r.litF with
    | some a, some b => if b = 0 ∨ a = 0 then .ok (.fval 0) else ofNat? (a.val &&& b.val)
    | some a, none => if a = 0 then .ok (.fval 0) else .ok (.fbin .and l r)
    | none, some b => if b = 0 then .ok (.fval 0) else .ok (.fbin .and l r)
    | none, none => .ok (.fbin .and l r)
  | .or => match l.litF, r.litF with
    | some a, some b => if b = 0 then .ok l else if a = 0 then .ok r else ofNat? (a.val ||| b.val)
    | some a, none => if a = 0 then .ok r else .ok (.fbin .or l r)
    | none, some b => if b = 0 then .ok l else .ok (.fbin .or l r)
    | none, none => .ok (.fbin .or l r)

/-- `propagation.rs:952-964`, `:1026-1095`. -/
def foldFU (op : FUOp) (l r : TExpr (ZMod p)) : Except PErr (TExpr (ZMod p)) :=
  match op, r.litU with
  | .pow, some k => if k = 0 then .ok (.fval 1) else match l.litF with
    | some a => .ok (.fval (a ^ k))
    | none => .ok (.fubin .pow l r)
  | .pow, none => .ok (.fubin .pow l r)
  | .shl, some k => if k = 0 then .ok l else if Fld.requiredBits p ≤ k then .ok (.fval 0) else match l.litF with
    | some a => ofNat? ((a.val * 2 ^ k) &&& (2 ^ Fld.requiredBits p - 1))
    | none => .ok (.fubin .shl l r)
  | .shl, none => .ok (.fubin .shl l r)
  | .shr, some k => if k = 0 then .ok l else if Fld.requiredBits p ≤ k then .ok (.fval 0) else match l.litF with
    | some a => ofNat? (a.val / 2 ^ k)
    | none => .ok (.fubin .shr l r)
  | .shr, none => .ok (.fubin .shr l r)

/-- `propagation.rs:942-947`. -/
def foldFneg (e : TExpr (ZMod p)) : TExpr (ZMod p) := match e.litF with
  | some n => .fval (0 - n)
  | none => .fneg e
/-- `propagation.rs:948-951`. -/
def foldFpos (e : TExpr (ZMod p)) : TExpr (ZMod p) := match e.litF with
  | some n => .fval n
  | none => .fpos e

/-- `propagation.rs:657-858`. `Or` is not folded (`result_folder.rs`). Sums and products with a literal have it on the right. -/
def foldU (w : UW) (op : UOp) (l r : TExpr (ZMod p)) : Except PErr (TExpr (ZMod p)) :=
  match op with
  | .add => match l.litU, r.litU with
    | some a, some b => .ok (.uval w ((a + b) % 2 ^ w.bits))
    | none, some v => if v = 0 then .ok l else .ok (.ubin w .add l (.uval w v))
    | some v, none => if v = 0 then .ok r else .ok (.ubin w .add r (.uval w v))
    | none, none => .ok (.ubin w .add l r)
  | .sub => match l.litU, r.litU with
    | some a, some b => .ok (.uval w ((a + (2 ^ 128 - b)) % 2 ^ 128 % 2 ^ w.bits))
    | none, some v => if v = 0 then .ok l else .ok (.ubin w .sub l (.uval w v))
    | _, none => .ok (.ubin w .sub l r)
  | .mult => match l.litU, r.litU with
    | some a, some b => .ok (.uval w ((a * b) % 2 ^ w.bits))
    | none, some v => if v = 0 then .ok (.uval w 0) else if v = 1 then .ok l else .ok (.ubin w .mult l (.uval w v))
    | some v, none => if v = 0 then .ok (.uval w 0) else if v = 1 then .ok r else .ok (.ubin w .mult r (.uval w v))
    | none, none => .ok (.ubin w .mult l r)
  | .div => match l.litU, r.litU with
    | some a, some b => if b = 0 then .error .uintDivision else .ok (.uval w (a / b % 2 ^ w.bits))
    | none, some v => if v = 1 then .ok l else .ok (.ubin w .div l (.uval w v))
    | _, none => .ok (.ubin w .div l r)
  | .rem => match l.litU, r.litU with
    | some a, some b => if b = 0 then .error .uintDivision else .ok (.uval w (a % b % 2 ^ w.bits))
    | none, some v => if v = 1 then .ok (.uval w 0) else .ok (.ubin w .rem l (.uval w v))
    | _, none => .ok (.ubin w .rem l r)
  | .shr => match l.litU, r.litU with
    | some a, some b => if 128 ≤ b then .error .shift else .ok (.uval w (a / 2 ^ b))
    | _, _ => .ok (.ubin w .shr l r)
  | .shl => match l.litU, r.litU with
    | some a, some b => if 128 ≤ b then .error .shift else .ok (.uval w ((a * 2 ^ b % 2 ^ 128) &&& (2 ^ w.bits - 1)))
    | _, _ => .ok (.ubin w .shl l r)
  | .xor => match l.litU, r.litU with
    | some a, some b => .ok (.uval w (a ^^^ b))
    | some a, none => if a = 0 then .ok r else if l = r then .ok (.uval w 0) else .ok (.ubin w .xor l r)
    | none, some b => if b = 0 then .ok l else if l = r then .ok (.uval w 0) else .ok (.ubin w .xor l r)
    | none, none => if l = r then .ok (.uval w 0) else .ok (.ubin w .xor l r)
  | .and => match l.litU, r.litU with
    | some a, some b => .ok (.uval w (a &&& b))
    | some a, none => if a = 0 then .ok (.uval w 0) else .ok (.ubin w .and l r)
    | none, some b => if b = 0 then .ok (.uval w 0) else .ok (.ubin w .and l r)
    | none, none => .ok (.ubin w .and l r)
  | .or => .ok (.ubin w .or l r)

/-- `propagation.rs:859-867`. -/
def foldUnot (w : UW) (e : TExpr (ZMod p)) : TExpr (ZMod p) := match e.litU with
  | some n => .uval w ((2 ^ 128 - 1 - n) &&& (2 ^ w.bits - 1))
  | none => .unot w e
/-- `propagation.rs:868-877`. -/
def foldUneg (w : UW) (e : TExpr (ZMod p)) : TExpr (ZMod p) := match e.litU with
  | some n => .uval w ((2 ^ 128 - n) % 2 ^ 128 % 2 ^ w.bits)
  | none => .uneg w e
/-- `propagation.rs:878-884`. -/
def foldUpos (w : UW) (e : TExpr (ZMod p)) : TExpr (ZMod p) := match e.litU with
  | some n => .uval w n
  | none => .upos w e

/-- `propagation.rs:1468-1515`. -/
def foldB (op : BOp) (l r : TExpr (ZMod p)) : TExpr (ZMod p) :=
  match op with
  | .or => match l.litB, r.litB with
    | some a, some b => .bval (a || b)
    | none, some b => if b then .bval true else l
    | some a, none => if a then .bval true else r
    | none, none => .bbin .or l r
  | .and => match l.litB, r.litB with
    | some a, some b => .bval (a && b)
    | none, some b => if b then l else .bval false
    | some a, none => if a then r else .bval false
    | none, none => .bbin .and l r
/-- `propagation.rs:1516-1522`. -/
def foldNot (e : TExpr (ZMod p)) : TExpr (ZMod p) := match e.litB with
  | some b => .bval (!b)
  | none => .bnot e

/-- `propagation.rs:1424-1445`: field elements are compared by their representatives in `0..p`. -/
def foldFcmp (op : COp) (l r : TExpr (ZMod p)) : TExpr (ZMod p) := match l.litF, r.litF with
  | some a, some b => .bval (match op with | .lt => decide (a.val < b.val) | .le => decide (a.val ≤ b.val))
  | _, _ => .fcmp op l r
/-- `propagation.rs:1446-1467`. -/
def foldUcmp (op : COp) (l r : TExpr (ZMod p)) : TExpr (ZMod p) := match l.litU, r.litU with
  | some a, some b => .bval (match op with | .lt => decide (a < b) | .le => decide (a ≤ b))
  | _, _ => .ucmp op l r

/-- `fold_eq_expression`, `propagation.rs:1368-1412`. -/
def foldEq (l r : TExpr (ZMod p)) : Except PErr (TExpr (ZMod p)) :=
  if l.ty ≠ r.ty then .error .type
  else if l = r then .ok (.bval true)
  else if l.constant && r.constant then do
    let l' ← canon l
    let r' ← canon r
    .ok (.bval (decide (l' = r')))
  else .ok (.eq l r)

/-- The branches of a conditional whose condition is not a literal, `propagation.rs:195-202`. -/
def foldCond (t : CType) (c a b : TExpr (ZMod p)) : TExpr (ZMod p) := if a = b then a else .cond t c a b

/-- The element `k` of the constant array `x`, `propagation.rs:1174-1209`: `ta` is the type of the array in the program, which the type of the constant is assumed to
be. -/
def selectConst (c : TExpr F) (ta : CType) (k : ℕ) : Except PErr (TExpr F) :=
  if c.ty ≠ ta then .error .malformed else
  match c.arrayOf, sizeOf? ta with
  | some es, some n => if es.any (fun e => match e with | .expr _ => false | .spread _ => true) then .error .malformed
    else if k < n then match es[k]? with
      | some (.expr e) => .ok e
      | _ => .error .malformed
    else .error (.outOfBounds k n)
  | _, _ => .error .malformed

/-- A select from a folded array at a folded index, `propagation.rs:1217-1234`: `n` is the size of the array type. -/
def foldSelect (t : CType) (a i : TExpr F) (n : ℕ) : Except PErr (TExpr F) :=
  match a.arrayOf, i.litU with
  | some es, some k => if k < n then match (atomsS t es)[k]? with
      | some e => .ok e
      | none => .error .malformed
    else .error (.outOfBounds k n)
  | _, _ => .ok (.select t a i)

/-- A member of a folded struct, `propagation.rs:1100-1130`. -/
def foldMember (t : CType) (s : TExpr F) (m : Str) : Except PErr (TExpr F) := match s.structOf with
  | some (ms, es) => match ((ms.map Prod.fst).zip es).lookup m with
    | some e => .ok e
    | none => .error .malformed
  | none => .ok (.member t s m)

/-- An element of a folded tuple, `propagation.rs:1132-1154`. -/
def foldElement (t : CType) (s : TExpr F) (i : ℕ) : Except PErr (TExpr F) := match s.tupleOf with
  | some es => match es[i]? with
    | some e => .ok e
    | none => .error .malformed
  | none => .ok (.element t s i)

mutual
/-- The fold of an expression. The code trusts that a constant has the type of the identifier it replaces (`E::from(e)` panics if it does not have the same kind);
here all other types are a panic. The types of the members of a struct or a tuple are compared behind the fold of all of them. -/
def propT (C : Consts (ZMod p)) : TExpr (ZMod p) → Except PErr (TExpr (ZMod p))
  | .fval n => .ok (.fval n)
  | .bval b => .ok (.bval b)
  | .uval w n => .ok (.uval w n)
  | .ident x t => match C x with
    | some c => if c.ty = t then .ok c else .error .malformed
    | none => .ok (.ident x t)
  | .fbin op l r => do
    let l' ← propT C l
    let r' ← propT C r
    foldF op l' r'
  | .fubin op l r => do
    let l' ← propT C l
    let r' ← propT C r
    foldFU op l' r'
  | .fneg e => do
    let e' ← propT C e
    .ok (foldFneg e')
  | .fpos e => do
    let e' ← propT C e
    .ok (foldFpos e')
  | .ubin w op l r => do
    let l' ← propT C l
    let r' ← propT C r
    foldU w op l' r'
  | .unot w e => do
    let e' ← propT C e
    .ok (foldUnot w e')
  | .uneg w e => do
    let e' ← propT C e
    .ok (foldUneg w e')
  | .upos w e => do
    let e' ← propT C e
    .ok (foldUpos w e')
  | .bbin op l r => do
    let l' ← propT C l
    let r' ← propT C r
    .ok (foldB op l' r')
  | .bnot e => do
    let e' ← propT C e
    .ok (foldNot e')
  | .fcmp op l r => do
    let l' ← propT C l
    let r' ← propT C r
    .ok (foldFcmp op l' r')
  | .ucmp op l r => do
    let l' ← propT C l
    let r' ← propT C r
    .ok (foldUcmp op l' r')
  | .eq l r => do
    let l' ← propT C l
    let r' ← propT C r
    foldEq l' r'
  | .cond t c a b => do
    let c' ← propT C c
    match c'.litB with
    | some true => propT C a
    | some false => propT C b
    | none => do
      let a' ← propT C a
      let b' ← propT C b
      .ok (foldCond t c' a' b')
  | .select t a i => do
    let i' ← propT C i
    match a.identOf, i'.litU, sizeOf? a.ty with
    | _, _, none => .error .malformed
    | some (x, ta), some k, some _ => match C x with
      | some c => selectConst c ta k
      | none => .ok (.select t (.ident x ta) i')
    | _, _, some n => do
      let a' ← propT C a
      foldSelect t a' i' n
  | .member t s m => do
    let s' ← propT C s
    foldMember t s' m
  | .element t e i => do
    let e' ← propT C e
    foldElement t e' i
  | .array t n es => do
    let es' ← propS C es
    .ok (.array t n (simplifyS es'))
  | .slice t n a lo hi => do
    let a' ← propT C a
    let lo' ← propT C lo
    let hi' ← propT C hi
    .ok (.slice t n a' lo' hi')
  | .repeat_ t n e count => do
    let e' ← propT C e
    let c' ← propT C count
    .ok (.repeat_ t n e' c')
  | .struct ms es => do
    let es' ← propL C es
    if es'.map TExpr.ty = ms.map Prod.snd then .ok (.struct ms es') else .error .type
  | .tuple ts es => do
    let es' ← propL C es
    if es'.map TExpr.ty = ts then .ok (.tuple ts es') else .error .type
  | .removed t => .ok (.removed t)
/-- The fold of a list of expressions. -/
def propL (C : Consts (ZMod p)) : List (TExpr (ZMod p)) → Except PErr (List (TExpr (ZMod p)))
  | [] => .ok []
  | e :: es => do
    let e' ← propT C e
    let es' ← propL C es
    .ok (e' :: es')
/-- The fold of the elements of an array, `result_folder.rs:548-570`. -/
def propS (C : Consts (ZMod p)) : List (TSpread (ZMod p)) → Except PErr (List (TSpread (ZMod p)))
  | [] => .ok []
  | .expr e :: es => do
    let e' ← propT C e
    let es' ← propS C es
    .ok (.expr e' :: es')
  | .spread e :: es => do
    let e' ← propT C e
    let es' ← propS C es
    .ok (.spread e' :: es')
end

/-! ### Statements -/

/-- The fold of an assignee, `result_folder.rs:960-976`. -/
def propA (C : Consts (ZMod p)) : TAssignee (ZMod p) → Except PErr (TAssignee (ZMod p))
  | .ident x t => .ok (.ident x t)
  | .select a i => do
    let a' ← propA C a
    let i' ← propT C i
    .ok (.select a' i')
  | .member a m => do
    let a' ← propA C a
    .ok (.member a' m)
  | .element a i => do
    let a' ← propA C a
    .ok (.element a' i)

/-- `try_get_constant_mut`, `propagation.rs:74-142`: the constant an assignee denotes, if it is known (`Err(v)` is `none`). As for identifiers in expressions, the type
of the constant is assumed to be the one of the variable. -/
def getK (C : Consts F) : TAssignee F → Except PErr (Option (TExpr F))
  | .ident x t => match C x with
    | some c => if c.ty = t then .ok (some c) else .error .malformed
    | none => .ok none
  | .select a i => do
    match ← getK C a with
    | none => .ok none
    | some c => match i.litU with
      | none => .ok none
      | some k => match c.arrayOf with
        | some es => match es[k]? with
          | some (.expr e) => .ok (some e)
          | none => .ok none
          | _ => .error .malformed
        | none => .error .malformed
  | .member a m => do
    match ← getK C a with
    | none => .ok none
    | some c => match c.structOf with
      | some (ms, es) => match ((ms.map Prod.fst).zip es).lookup m with
        | some e => .ok (some e)
        | none => .error .malformed
      | none => .error .malformed
  | .element a i => do
    match ← getK C a with
    | none => .ok none
    | some c => match c.tupleOf with
      | some es => match es[i]? with
        | some e => .ok (some e)
        | none => .error .malformed
      | none => .error .malformed

/-- `*c = new` behind `try_get_constant_mut`, `propagation.rs:316-319`: the constant of the whole variable behind the assignment to the part of it. -/
def setK (C : Consts F) : TAssignee F → TExpr F → Except PErr (TExpr F)
  | .ident _ _, new => .ok new
  | .select a i, new => do
    match ← getK C a with
    | some (.array t n es) => match i.litU with
      | some k => setK C a (.array t n (es.set k (.expr new)))
      | none => .error .malformed
    | _ => .error .malformed
  | .member a m, new => do
    match ← getK C a with
    | some (.struct ms es) => setK C a (.struct ms (es.set ((ms.map Prod.fst).idxOf m) new))
    | _ => .error .malformed
  | .element a i, new => do
    match ← getK C a with
    | some (.tuple ts es) => setK C a (.tuple ts (es.set i new))
    | _ => .error .malformed

/-- The cache is invalidated for the variable of the assignee, and the latest version of the constant is defined in the program, if any, in front of the statement `s`;
`propagation.rs:320-329`, `:331-345`, `:556-566`, `:569-587`, `:590-608`. -/
def invalidate (C : Consts F) (a : TAssignee F) (s : TStmt F) : Except PErr (Consts F × List (TStmt F)) := do
  let _ ← getK C a
  match C a.root with
  | some c => if c.ty = a.rootTy then .ok (C.remove a.root, [.definition (.ident a.root a.rootTy) c, s]) else .error .malformed
  | none => .ok (C.remove a.root, [s])

/-- The assignment of a constant, `propagation.rs:305-330` (`once` holds) and `:545-567` (it does not; the constant is in canonical form already). -/
def assignConst (C : Consts F) (once : Bool) (a : TAssignee F) (e : TExpr F) : Except PErr (Consts F × List (TStmt F)) :=
  match a with
  | .ident x _ => do
    let c ← canon e
    if once && (C x).isSome then .error .redefined else .ok (C.insert x c, [])
  | a => do
    match ← getK C a with
    | some _ => do
      let c ← canon e
      let c' ← setK C a c
      .ok (C.insert a.root c', [])
    | none => invalidate C a (.definition a e)

/-- Booleans of an array value in canonical form, `propagation.rs:364-376`. -/
def boolsOf : List (TSpread F) → Except PErr (List Bool)
  | [] => .ok []
  | .expr (.bval b) :: es => do
    let bs ← boolsOf es
    .ok (b :: bs)
  | _ => .error .malformed

/-- Array of literal booleans. -/
def boolArray (n : ℕ) (bs : List Bool) : TExpr F := .array .bool n (bs.map fun b => .expr (.bval b))

/-- The loop of `process_u_to_bits`, `propagation.rs:405-416`: the bits, and the remainder. -/
def bitsLoop : ℕ → ℕ → List Bool × ℕ
  | 0, a => ([], a)
  | i + 1, a => if 2 ^ i ≤ a then (true :: (bitsLoop i (a - 2 ^ i)).1, (bitsLoop i (a - 2 ^ i)).2)
    else (false :: (bitsLoop i a).1, (bitsLoop i a).2)

/-- The loop of `Unpack`, `propagation.rs:502-512`: the same with field elements, which are compared by their representatives. -/
def unpackLoop : ℕ → ZMod p → List Bool × ZMod p
  | 0, a => ([], a)
  | i + 1, a => if ((2 : ZMod p) ^ i).val ≤ a.val then (true :: (unpackLoop i (a - 2 ^ i)).1, (unpackLoop i (a - 2 ^ i)).2)
    else (false :: (unpackLoop i a).1, (unpackLoop i a).2)

/-- The width of the integers `process_u_from_bits` is called for, `propagation.rs:458-473`. -/
def uwOf : ℕ → Option UW
  | 8 => some .b8
  | 16 => some .b16
  | 32 => some .b32
  | 64 => some .b64
  | _ => none

/-- The call of an embedded function on constants, `propagation.rs:430-543`. -/
def foldEmbed (f : Embed) (g : List ℕ) (args : List (TExpr (ZMod p))) : Except PErr (Option (TExpr (ZMod p))) :=
  match f with
  | .bitArrayLe => .ok none
  | .fieldToBoolUnsafe => match args with
    | e :: _ => match e.litF with
      | some n => if n = 0 then .ok (some (.bval false)) else if n = 1 then .ok (some (.bval true)) else .error .invalidValue
      | none => .ok none
    | [] => .error .malformed
  | .uFromBits w => match args, uwOf w with
    | [e], some u => do
      let c ← canon e
      match c.arrayOf with
      | some es => do
        let bs ← boolsOf es
        if w < bs.length then .error .malformed
        else .ok (some (.uval u (bs.zipIdx.foldl (fun acc bi => if bi.1 then acc + 2 ^ (w - bi.2 - 1) else acc) 0)))
      | none => .error .malformed
    | _, _ => .error .malformed
  | .uToBits w => match args with
    | [e] => match e.litU with
      | some n => if (bitsLoop w n).2 = 0 then .ok (some (boolArray w (bitsLoop w n).1)) else .error .malformed
      | none => .error .malformed
    | _ => .error .malformed
  | .unpack => match args, g with
    | [e], [n] => match e.litF with
      | some x => if (unpackLoop n x).2 = 0 then .ok (some (boolArray n (unpackLoop n x).1)) else .error .invalidValue
      | none => .error .malformed
    | _, _ => .error .malformed

/-- The call of an embedded function whose arguments have been folded, `propagation.rs:430`, `:588`: it is kept unless all of them are constants. -/
def foldCall (f : Embed) (g : List ℕ) (args : List (TExpr (ZMod p))) : Except PErr (Option (TExpr (ZMod p))) :=
  if constantL args then foldEmbed f g args else .ok none

/-- A definition whose assignee and right side have been folded, `propagation.rs:292-346`. -/
def propDef (C : Consts (ZMod p)) (a : TAssignee (ZMod p)) (e : TExpr (ZMod p)) : Except PErr (Consts (ZMod p) × List (TStmt (ZMod p))) :=
  match a.ty with
  | none => .error .malformed
  | some t => if t ≠ e.ty then .error .type
    else if e.constant then assignConst C true a e
    else invalidate C a (.definition a e)

/-- The fold of a statement: definitions, `propagation.rs:282-611`; assertions, `:637-649`; `result_folder.rs:740-885` otherwise. -/
def propStmt (C : Consts (ZMod p)) : TStmt (ZMod p) → Except PErr (Consts (ZMod p) × List (TStmt (ZMod p)))
  | .ret e => do
    let e' ← propT C e
    .ok (C, [.ret e'])
  | .definition a e => do
    let a' ← propA C a
    let e' ← propT C e
    propDef C a' e'
  | .embed a f g args => do
    let a' ← propA C a
    let args' ← propL C args
    let r ← foldCall f g args'
    match r with
    | some e => assignConst C false a' e
    | none => invalidate C a' (.embed a' f g args')
  | .assertion e err => do
    let e' ← propT C e
    match e'.litB with
    | some false => .error (.assertionFailed err)
    | some true => .ok (C, [])
    | none => .ok (C, [.assertion e' err])
  | .log es => do
    let es' ← propL C es
    .ok (C, [.log es'])

/-- The fold of the statements of a function, in order. -/
def propStmts (C : Consts (ZMod p)) : List (TStmt (ZMod p)) → Except PErr (List (TStmt (ZMod p)))
  | [] => .ok []
  | s :: ss => do
    let r ← propStmt C s
    let rs ← propStmts r.1 ss
    .ok (r.2 ++ rs)

/-- `Propagator::propagate`, `propagation.rs:66-68`, `:149-179`: only the main function is left. -/
def propagateT (f : TFun (ZMod p)) : Except PErr (TFun (ZMod p)) := do
  let body ← propStmts (fun _ => none) f.body
  .ok { f with body := body }

end Zok.Typed
