import Verif.Model.FlattenerStmt
import Verif.Spec.ZirEval

/-
Constant propagation on ZIR: `zokrates_analysis/src/zir_propagation.rs`. The map of constants of the code only ever
holds literals; it is modelled by a partial map from identifiers to values. Spans are dropped.
-/

namespace Zok

/-- `enum Error`, `zir_propagation.rs:22-27`; `panic` stands for a Rust panic. -/
inductive PropError where
  | outOfBounds (i n : ℕ)
  | divisionByZero
  | assertionFailed (e : RuntimeError)
  | panic
deriving DecidableEq, Repr

namespace Prop'
variable {p : ℕ}

/-- `Constants`, `zir_propagation.rs:20`. -/
abbrev Consts (p : ℕ) := ZId → Option (ZVal p)

/-- `FieldElementExpression::Value(n)`. -/
def fval? : FExpr (ZMod p) → Option (ZMod p)
  | .value n => some n
  | _ => none

/-- `BooleanExpression::Value(b)`. -/
def bval? : BExpr (ZMod p) → Option Bool
  | .value n => some n
  | _ => none

/-- `UExpressionInner::Value(n)`. -/
def uval? : UInner (ZMod p) → Option ℕ
  | .value n => some n
  | _ => none

/-! ### Field expressions, `zir_propagation.rs:273-490`. The arguments are the folded operands. -/

/-- `Add`, 279-296. -/
def foldAdd (l r : FExpr (ZMod p)) : FExpr (ZMod p) :=
  if fval? l = some 0 then r
  else if fval? r = some 0 then l
  else match fval? l, fval? r with
    | some a, some b => .value (a + b)
    | _, _ => .add l r

/-- `Sub`, 297-309. -/
def foldSub (l r : FExpr (ZMod p)) : FExpr (ZMod p) :=
  if fval? r = some 0 then l
  else match fval? l, fval? r with
    | some a, some b => .value (a - b)
    | _, _ => .sub l r

/-- `Mult`, 310-332. -/
def foldMult (l r : FExpr (ZMod p)) : FExpr (ZMod p) :=
  if fval? l = some 0 ∨ fval? r = some 0 then .value 0
  else if fval? l = some 1 then r
  else if fval? r = some 1 then l
  else match fval? l, fval? r with
    | some a, some b => .value (a * b)
    | _, _ => .mult l r

/-- `Div`, 333-347. -/
def foldDiv [Fact p.Prime] (l r : FExpr (ZMod p)) : Except PropError (FExpr (ZMod p)) :=
  if fval? r = some 0 then .error .divisionByZero
  else if fval? r = some 1 then .ok l
  else match fval? l, fval? r with
    | some a, some b => .ok (.value (a / b))
    | _, _ => .ok (.div l r)

/-- `Pow`, 348-363. -/
def foldPow (l : FExpr (ZMod p)) (n : UInner (ZMod p)) : FExpr (ZMod p) :=
  if uval? n = some 0 then .value 1
  else if uval? n = some 1 then l
  else match fval? l, uval? n with
    | some a, some k => .value (a ^ k)
    | _, _ => .pow l (.mk 32 none n)

/-- `T::try_from(n).unwrap()`. -/
def tryFrom (n : ℕ) : Except PropError (FExpr (ZMod p)) :=
  match Fld.tryFromBiguint p n with
  | some v => .ok (.value v)
  | none => .error .panic

/-- `Xor`, 364-379. The operands are swapped. -/
def foldXor (l r : FExpr (ZMod p)) : Except PropError (FExpr (ZMod p)) :=
  match fval? r, fval? l with
  | some a, some b => tryFrom (a.val ^^^ b.val)
  | _, _ => if r.beq l then .ok (.value 0) else .ok (.xor r l)

/-- `And`, 380-400. -/
def foldAnd (l r : FExpr (ZMod p)) : Except PropError (FExpr (ZMod p)) :=
  if fval? r = some 0 ∨ fval? l = some 0 then .ok (.value 0)
  else match fval? l, fval? r with
    | some a, some b => tryFrom (a.val &&& b.val)
    | _, _ => .ok (.and l r)

/-- `Or`, 401-421. -/
def foldOr (l r : FExpr (ZMod p)) : Except PropError (FExpr (ZMod p)) :=
  if fval? r = some 0 then .ok l
  else if fval? l = some 0 then .ok r
  else match fval? l, fval? r with
    | some a, some b => tryFrom (a.val ||| b.val)
    | _, _ => .ok (.or l r)

/-- `LeftShift`, 422-457. -/
def foldLeftShift (e : FExpr (ZMod p)) (n : UExpr (ZMod p)) : Except PropError (FExpr (ZMod p)) :=
  match uval? n.inner with
  | none => .ok (.leftShift e n)
  | some k =>
    if k = 0 then .ok e
    else if k ≥ Fld.requiredBits p then .ok (.value 0)
    else match fval? e with
      | some a => tryFrom ((a.val <<< k) &&& (2 ^ Fld.requiredBits p - 1))
      | none => .ok (.leftShift e n)

/-- `RightShift`, 458-487. -/
def foldRightShift (e : FExpr (ZMod p)) (n : UExpr (ZMod p)) : Except PropError (FExpr (ZMod p)) :=
  match uval? n.inner with
  | none => .ok (.rightShift e n)
  | some k =>
    if k = 0 then .ok e
    else if k ≥ Fld.requiredBits p then .ok (.value 0)
    else match fval? e with
      | some a => tryFrom (a.val >>> k)
      | none => .ok (.rightShift e n)

/-! ### Boolean expressions, `zir_propagation.rs:492-637` -/

/-- `FieldLt`, 498-515. -/
def foldFieldLt (l r : FExpr (ZMod p)) : BExpr (ZMod p) :=
  match fval? l, fval? r with
  | some a, some b => .value (decide (a.val < b.val))
  | _, _ =>
    if fval? r = some 0 then .value false
    else if fval? l = some (Fld.maxValue p) then .value false
    else .fieldLt l r

/-- `FieldLe`, 516-526. -/
def foldFieldLe (l r : FExpr (ZMod p)) : BExpr (ZMod p) :=
  match fval? l, fval? r with
  | some a, some b => .value (decide (a.val ≤ b.val))
  | _, _ => .fieldLe l r

/-- `FieldEq`, 527-543. -/
def foldFieldEq (l r : FExpr (ZMod p)) : BExpr (ZMod p) :=
  match fval? l, fval? r with
  | some a, some b => .value (decide (a = b))
  | _, _ => if l.beq r then .value true else .fieldEq l r

/-- `UintLt`, 544-554. -/
def foldUintLt (l r : UExpr (ZMod p)) : BExpr (ZMod p) :=
  match uval? l.inner, uval? r.inner with
  | some a, some b => .value (decide (a < b))
  | _, _ => .uintLt l r

/-- `UintLe`, 555-565. -/
def foldUintLe (l r : UExpr (ZMod p)) : BExpr (ZMod p) :=
  match uval? l.inner, uval? r.inner with
  | some a, some b => .value (decide (a ≤ b))
  | _, _ => .uintLe l r

/-- `UintEq`, 566-582. -/
def foldUintEq (l r : UExpr (ZMod p)) : BExpr (ZMod p) :=
  match uval? l.inner, uval? r.inner with
  | some a, some b => .value (decide (a = b))
  | _, _ => if l.beq r then .value true else .uintEq l r

/-- `BoolEq`, 583-599. -/
def foldBoolEq (l r : BExpr (ZMod p)) : BExpr (ZMod p) :=
  match bval? l, bval? r with
  | some a, some b => .value (a == b)
  | _, _ => if l.beq r then .value true else .boolEq l r

/-- `Or`, 600-619. -/
def foldBOr (l r : BExpr (ZMod p)) : BExpr (ZMod p) :=
  match bval? l, bval? r with
  | some a, some b => .value (a || b)
  | _, _ =>
    if bval? r = some true ∨ bval? l = some true then .value true
    else if bval? r = some false then l
    else if bval? l = some false then r
    else .or l r

/-- `And`, 620-636. -/
def foldBAnd (l r : BExpr (ZMod p)) : BExpr (ZMod p) :=
  if bval? l = some true then r
  else if bval? r = some true then l
  else if bval? l = some false ∨ bval? r = some false then .value false
  else .and l r

/-- `Not`, 637-640. -/
def foldNot (e : BExpr (ZMod p)) : BExpr (ZMod p) :=
  match bval? e with
  | some b => .value (!b)
  | none => .not e

/-! ### Unsigned integers, `zir_propagation.rs:671-872`. The operands are expressions without width; `w` is the width of
the result, with which they are annotated again (without metadata). Arithmetic is on `u128`. -/

/-- `Add`, 678-697. -/
def foldUAdd (w : ℕ) (l r : UInner (ZMod p)) : UInner (ZMod p) :=
  if uval? l = some 0 then r
  else if uval? r = some 0 then l
  else match uval? l, uval? r with
    | some a, some b => .value ((a + b) % 2 ^ w)
    | _, _ => .add (.mk w none l) (.mk w none r)

/-- `Sub`, 698-714. -/
def foldUSub (w : ℕ) (l r : UInner (ZMod p)) : UInner (ZMod p) :=
  if uval? r = some 0 then l
  else match uval? l, uval? r with
    | some a, some b => .value ((a + 2 ^ 128 - b) % 2 ^ 128 % 2 ^ w)
    | _, _ => .sub (.mk w none l) (.mk w none r)

/-- `Mult`, 715-740. -/
def foldUMult (w : ℕ) (l r : UInner (ZMod p)) : UInner (ZMod p) :=
  if uval? r = some 0 ∨ uval? l = some 0 then .value 0
  else if uval? r = some 1 then l
  else if uval? l = some 1 then r
  else match uval? l, uval? r with
    | some a, some b => .value ((a * b) % 2 ^ w)
    | _, _ => .mult (.mk w none l) (.mk w none r)

/-- `Div`, 741-757. -/
def foldUDiv (w : ℕ) (l r : UInner (ZMod p)) : Except PropError (UInner (ZMod p)) :=
  if uval? r = some 0 then .error .divisionByZero
  else if uval? r = some 1 then .ok l
  else match uval? l, uval? r with
    | some a, some b => .ok (.value ((a / b) % 2 ^ w))
    | _, _ => .ok (.div (.mk w none l) (.mk w none r))

/-- `Rem`, 758-772: a remainder by the constant zero panics if the dividend is constant too. -/
def foldURem (w : ℕ) (l r : UInner (ZMod p)) : Except PropError (UInner (ZMod p)) :=
  match uval? l, uval? r with
  | some a, some b => if b = 0 then .error .panic else .ok (.value ((a % b) % 2 ^ w))
  | _, _ => .ok (.rem (.mk w none l) (.mk w none r))

/-- `Xor`, 773-786. -/
def foldUXor (w : ℕ) (l r : UInner (ZMod p)) : UInner (ZMod p) :=
  match uval? l, uval? r with
  | some a, some b => .value (a ^^^ b)
  | _, _ => if l.beq r then .value 0 else .xor (.mk w none l) (.mk w none r)

/-- `And`, 787-809. -/
def foldUAnd (w : ℕ) (l r : UInner (ZMod p)) : UInner (ZMod p) :=
  if uval? r = some (2 ^ w - 1) then l
  else if uval? l = some (2 ^ w - 1) then r
  else if uval? r = some 0 ∨ uval? l = some 0 then .value 0
  else match uval? l, uval? r with
    | some a, some b => .value (a &&& b)
    | _, _ => .and (.mk w none l) (.mk w none r)

/-- `Or`, 810-832. -/
def foldUOr (w : ℕ) (l r : UInner (ZMod p)) : UInner (ZMod p) :=
  if uval? r = some 0 then l
  else if uval? l = some 0 then r
  else if uval? r = some (2 ^ w - 1) ∨ uval? l = some (2 ^ w - 1) then .value (2 ^ w - 1)
  else match uval? l, uval? r with
    | some a, some b => .value (a ||| b)
    | _, _ => .or (.mk w none l) (.mk w none r)

/-- `LeftShift`, 833-851. The shift is converted to `u32` for the comparison. -/
def foldULeftShift (w : ℕ) (e n : UInner (ZMod p)) : UInner (ZMod p) :=
  match uval? n with
  | none => .leftShift (.mk w none e) (.mk 32 none n)
  | some k =>
    if k = 0 then e
    else if k % 2 ^ 32 ≥ w then .value 0
    else match uval? e with
      | some a => .value ((a <<< k) &&& (2 ^ w - 1))
      | none => .leftShift (.mk w none e) (.mk 32 none n)

/-- `RightShift`, 852-868. -/
def foldURightShift (w : ℕ) (e n : UInner (ZMod p)) : UInner (ZMod p) :=
  match uval? n with
  | none => .rightShift (.mk w none e) (.mk 32 none n)
  | some k =>
    if k = 0 then e
    else if k % 2 ^ 32 ≥ w then .value 0
    else match uval? e with
      | some a => .value (a >>> k)
      | none => .rightShift (.mk w none e) (.mk 32 none n)

/-- `Not`, 869-877. -/
def foldUNot (w : ℕ) (e : UInner (ZMod p)) : UInner (ZMod p) :=
  match uval? e with
  | some a => .value ((2 ^ 128 - 1 - a) &&& (2 ^ w - 1))
  | none => .not (.mk w none e)

/-- `array.get(i).ok_or(OutOfBounds(i, len))`, 655-660. -/
def getElem {α : Type} (es : List α) (k : ℕ) : Except PropError α :=
  match es[k]? with
  | some e => .ok e
  | none => .error (.outOfBounds k es.length)

section
variable [Fact p.Prime]
mutual
/-- `fold_field_expression_cases`, 273-490; identifiers 257-271; selections 641-669; conditionals 874-913. -/
def propF (c : Consts p) : FExpr (ZMod p) → Except PropError (FExpr (ZMod p))
  | .value n => .ok (.value n)
  | .ident x => match c x with
    | none => .ok (.ident x)
    | some (.field v) => .ok (.value v)
    | some _ => .error .panic
  | .select es i => do
    let i' ← propU c i
    let es' ← propFs c es
    match uval? i'.inner with
    | some k => getElem es' k
    | none => .ok (.select es' i')
  | .add l r => do
    let l' ← propF c l
    let r' ← propF c r
    .ok (foldAdd l' r')
  | .sub l r => do
    let l' ← propF c l
    let r' ← propF c r
    .ok (foldSub l' r')
  | .mult l r => do
    let l' ← propF c l
    let r' ← propF c r
    .ok (foldMult l' r')
  | .div l r => do
    let l' ← propF c l
    let r' ← propF c r
    foldDiv l' r'
  | .pow e n => do
    let n' ← propU c n
    let e' ← propF c e
    .ok (foldPow e' n'.inner)
  | .xor l r => do
    let r' ← propF c r
    let l' ← propF c l
    foldXor l' r'
  | .and l r => do
    let l' ← propF c l
    let r' ← propF c r
    foldAnd l' r'
  | .or l r => do
    let l' ← propF c l
    let r' ← propF c r
    foldOr l' r'
  | .leftShift e n => do
    let e' ← propF c e
    let n' ← propU c n
    foldLeftShift e' n'
  | .rightShift e n => do
    let e' ← propF c e
    let n' ← propU c n
    foldRightShift e' n'
  | .cond b t e => do
    let b' ← propB c b
    match bval? b' with
    | some true => propF c t
    | some false => propF c e
    | none =>
      let t' ← propF c t
      let e' ← propF c e
      .ok (if t'.beq e' then t' else .cond b' t' e')
/-- Folding of each element. -/
def propFs (c : Consts p) : List (FExpr (ZMod p)) → Except PropError (List (FExpr (ZMod p)))
  | [] => .ok []
  | e :: es => do
    let e' ← propF c e
    let es' ← propFs c es
    .ok (e' :: es')
/-- `fold_boolean_expression_cases`, 492-640; identifiers 257-271; selections 641-669; conditionals 874-913. -/
def propB (c : Consts p) : BExpr (ZMod p) → Except PropError (BExpr (ZMod p))
  | .value b => .ok (.value b)
  | .ident x => match c x with
    | none => .ok (.ident x)
    | some (.bool v) => .ok (.value v)
    | some _ => .error .panic
  | .select es i => do
    let i' ← propU c i
    let es' ← propBs c es
    match uval? i'.inner with
    | some k => getElem es' k
    | none => .ok (.select es' i')
  | .fieldLt l r => do
    let l' ← propF c l
    let r' ← propF c r
    .ok (foldFieldLt l' r')
  | .fieldLe l r => do
    let l' ← propF c l
    let r' ← propF c r
    .ok (foldFieldLe l' r')
  | .fieldEq l r => do
    let l' ← propF c l
    let r' ← propF c r
    .ok (foldFieldEq l' r')
  | .uintLt l r => do
    let l' ← propU c l
    let r' ← propU c r
    .ok (foldUintLt l' r')
  | .uintLe l r => do
    let l' ← propU c l
    let r' ← propU c r
    .ok (foldUintLe l' r')
  | .uintEq l r => do
    let l' ← propU c l
    let r' ← propU c r
    .ok (foldUintEq l' r')
  | .boolEq l r => do
    let l' ← propB c l
    let r' ← propB c r
    .ok (foldBoolEq l' r')
  | .or l r => do
    let l' ← propB c l
    let r' ← propB c r
    .ok (foldBOr l' r')
  | .and l r => do
    let l' ← propB c l
    let r' ← propB c r
    .ok (foldBAnd l' r')
  | .not e => do
    let e' ← propB c e
    .ok (foldNot e')
  | .cond b t e => do
    let b' ← propB c b
    match bval? b' with
    | some true => propB c t
    | some false => propB c e
    | none =>
      let t' ← propB c t
      let e' ← propB c e
      .ok (if t'.beq e' then t' else .cond b' t' e')
/-- Folding of each element. -/
def propBs (c : Consts p) : List (BExpr (ZMod p)) → Except PropError (List (BExpr (ZMod p)))
  | [] => .ok []
  | e :: es => do
    let e' ← propB c e
    let es' ← propBs c es
    .ok (e' :: es')
/-- `fold_uint_expression`, `zir/result_folder.rs:646-654`: width and metadata are kept. -/
def propU (c : Consts p) : UExpr (ZMod p) → Except PropError (UExpr (ZMod p))
  | .mk w m i => do
    let i' ← propUI c w i
    .ok (.mk w m i')
/-- Folding of each element. -/
def propUs (c : Consts p) : List (UExpr (ZMod p)) → Except PropError (List (UExpr (ZMod p)))
  | [] => .ok []
  | e :: es => do
    let e' ← propU c e
    let es' ← propUs c es
    .ok (e' :: es')
/-- `fold_uint_expression_cases`, 671-872; identifiers 257-271; selections 641-669; conditionals 874-913. -/
def propUI (c : Consts p) (w : ℕ) : UInner (ZMod p) → Except PropError (UInner (ZMod p))
  | .value n => .ok (.value n)
  | .ident x => match c x with
    | none => .ok (.ident x)
    | some (.uint _ n) => .ok (.value n)
    | some _ => .error .panic
  | .select es i => do
    let i' ← propU c i
    let es' ← propUs c es
    match uval? i'.inner with
    | some k => do
      let e ← getElem es' k
      .ok e.inner
    | none => .ok (.select es' i')
  | .add l r => do
    let l' ← propU c l
    let r' ← propU c r
    .ok (foldUAdd w l'.inner r'.inner)
  | .sub l r => do
    let l' ← propU c l
    let r' ← propU c r
    .ok (foldUSub w l'.inner r'.inner)
  | .mult l r => do
    let l' ← propU c l
    let r' ← propU c r
    .ok (foldUMult w l'.inner r'.inner)
  | .div l r => do
    let l' ← propU c l
    let r' ← propU c r
    foldUDiv w l'.inner r'.inner
  | .rem l r => do
    let l' ← propU c l
    let r' ← propU c r
    foldURem w l'.inner r'.inner
  | .xor l r => do
    let l' ← propU c l
    let r' ← propU c r
    .ok (foldUXor w l'.inner r'.inner)
  | .and l r => do
    let l' ← propU c l
    let r' ← propU c r
    .ok (foldUAnd w l'.inner r'.inner)
  | .or l r => do
    let l' ← propU c l
    let r' ← propU c r
    .ok (foldUOr w l'.inner r'.inner)
  | .leftShift l r => do
    let l' ← propU c l
    let r' ← propU c r
    .ok (foldULeftShift w l'.inner r'.inner)
  | .rightShift l r => do
    let l' ← propU c l
    let r' ← propU c r
    .ok (foldURightShift w l'.inner r'.inner)
  | .not e => do
    let e' ← propU c e
    .ok (foldUNot w e'.inner)
  | .cond b t e => do
    let b' ← propB c b
    match bval? b' with
    | some true => do
      let t' ← propU c t
      .ok t'.inner
    | some false => do
      let e' ← propU c e
      .ok e'.inner
    | none =>
      let t' ← propU c t
      let e' ← propU c e
      .ok (if t'.beq e' then t'.inner else .cond b' t' e')
end

/-! ### Statements, `zir_propagation.rs:62-255` -/

/-- `fold_expression`, `zir/result_folder.rs`. -/
def propZ (c : Consts p) : ZExpr (ZMod p) → Except PropError (ZExpr (ZMod p))
  | .field e => do
    let e' ← propF c e
    .ok (.field e')
  | .bool e => do
    let e' ← propB c e
    .ok (.bool e')
  | .uint e => do
    let e' ← propU c e
    .ok (.uint e')

/-- Folding of each element. -/
def propZs (c : Consts p) : List (ZExpr (ZMod p)) → Except PropError (List (ZExpr (ZMod p)))
  | [] => .ok []
  | e :: es => do
    let e' ← propZ c e
    let es' ← propZs c es
    .ok (e' :: es')

/-- Folding of the lists of a log statement. -/
def propZss (c : Consts p) : List (List (ZExpr (ZMod p))) → Except PropError (List (List (ZExpr (ZMod p))))
  | [] => .ok []
  | e :: es => do
    let e' ← propZs c e
    let es' ← propZss c es
    .ok (e' :: es')

/-- The literal an expression is, if it is one. -/
def zval? : ZExpr (ZMod p) → Option (ZVal p)
  | .field e => (fval? e).map .field
  | .bool e => (bval? e).map .bool
  | .uint e => (uval? e.inner).map (.uint e.width)

/-- `constants.insert`. -/
def Consts.insert (c : Consts p) (x : ZId) (v : ZVal p) : Consts p := fun y => if y = x then some v else c y

/-- `constants.remove`. -/
def Consts.remove (c : Consts p) (x : ZId) : Consts p := fun y => if y = x then none else c y

/-- `constants.remove` on each identifier. -/
def Consts.removeAll (c : Consts p) : List ZId → Consts p
  | [] => c
  | x :: xs => (c.remove x).removeAll xs

/-- `constants.extend` with pairs of assignees and values (`zip`). -/
def Consts.insertAll (c : Consts p) : List ZId → List (ZMod p) → Consts p
  | x :: xs, v :: vs => (c.insert x (.field v)).insertAll xs vs
  | _, _ => c

/-- The folded hint of an assembly assignment: all its results are constant, or a remaining function. -/
inductive HintFold (p : ℕ) (Z : Type) where
  | values (vs : List (ZMod p))
  | residual (f : Z) (args : List ZId)

/-- How hint functions are folded (`fold_function`, 62-85, applied to the hint; the body of a hint is abstract in the
model). Identifiers defined in the body of a hint are assumed not to occur outside of it, so that their constants can be
forgotten. -/
abbrev HintFolder (p : ℕ) (Z : Type) := Consts p → Z → List ZId → Except PropError (HintFold p Z)

variable {Z : Type}

/-- `fold_assembly_assignment`, 109-145, and `fold_assembly_constraint`, 147-172. The message of the assertion error is
`error`. -/
def propAsm (H : HintFolder p Z) (error : String → RuntimeError) (c : Consts p) :
    ZAsm (ZMod p) Z → Except PropError (Consts p × List (ZAsm (ZMod p) Z))
  | .assignment xs f args => do
    match ← H c f args with
    | .values vs => .ok (c.insertAll xs vs, [])
    | .residual f' args' => .ok (c.removeAll xs, [.assignment xs f' args'])
  | .constraint l r info => do
    let l' ← propF c l
    let r' ← propF c r
    match ← propB c (.fieldEq l' r') with
    | .value true => .ok (c, [])
    | .value false => .error (.assertionFailed (error info))
    | _ => .ok (c, [.constraint l' r' info])

/-- The statements of an assembly block. -/
def propAsms (H : HintFolder p Z) (error : String → RuntimeError) (c : Consts p) :
    List (ZAsm (ZMod p) Z) → Except PropError (Consts p × List (ZAsm (ZMod p) Z))
  | [] => .ok (c, [])
  | s :: ss => do
    let (c₁, s') ← propAsm H error c s
    let (c₂, ss') ← propAsms H error c₁ ss
    .ok (c₂, s' ++ ss')

mutual
/-- `fold_statement_cases` with the cases overridden by the propagator, 87-255. -/
def propS (H : HintFolder p Z) (error : String → RuntimeError) (c : Consts p) :
    ZStmt (ZMod p) Z → Except PropError (Consts p × List (ZStmt (ZMod p) Z))
  | .ret es => do
    let es' ← propZs c es
    .ok (c, [.ret es'])
  | .definition x e => do
    let e' ← propZ c e
    match zval? e' with
    | some v => .ok (c.insert x v, [])
    | none => .ok (c.remove x, [.definition x e'])
  | .ifElse b t e => do
    let b' ← propB c b
    match bval? b' with
    | some true => propSs H error c t
    | some false => propSs H error c e
    | none =>
      let (c₁, t') ← propSs H error c t
      let (c₂, e') ← propSs H error c₁ e
      .ok (c₂, [.ifElse b' t' e'])
  | .assertion e err => do
    let e' ← propB c e
    match bval? e' with
    | some true => .ok (c, [])
    | some false => .error (.assertionFailed err)
    | none => .ok (c, [.assertion e' err])
  | .multiDef xs embed g args => do
    let args' ← propZs (c.removeAll xs) args
    .ok (c.removeAll xs, [.multiDef xs embed g args'])
  | .log es => do
    let es' ← propZss c es
    .ok (c, [.log es'])
  | .assembly ss => do
    let (c', ss') ← propAsms H error c ss
    .ok (c', if ss'.isEmpty then [] else [.assembly ss'])
/-- Lists of statements. -/
def propSs (H : HintFolder p Z) (error : String → RuntimeError) (c : Consts p) :
    List (ZStmt (ZMod p) Z) → Except PropError (Consts p × List (ZStmt (ZMod p) Z))
  | [] => .ok (c, [])
  | s :: ss => do
    let (c₁, s') ← propS H error c s
    let (c₂, ss') ← propSs H error c₁ ss
    .ok (c₂, s' ++ ss')
end

/-- `propagate`, 53-58, with `fold_function`, 62-85: no constants are known at the start. -/
def propagate (H : HintFolder p Z) (error : String → RuntimeError) (f : ZFun (ZMod p) Z) :
    Except PropError (ZFun (ZMod p) Z) := do
  let (_, body) ← propSs H error (fun _ => none) f.body
  .ok { f with body := body }

end
end Prop'
end Zok
