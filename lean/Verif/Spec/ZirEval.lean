import Verif.Model.Zir
import Verif.Model.Field

/-
Specification: the meaning of ZIR expressions. Field expressions are evaluated in `ZMod p`, unsigned integer
expressions in the natural numbers modulo `2^w`. Evaluation is eager: all subexpressions, both branches of a
conditional and all elements of an array are evaluated, from left to right (the index of an array access before the
elements). An evaluation can fail with a `Fault`.

Comparison of field elements compares canonical representatives. Between two non-constant operands it is only defined
when both are below `2^(bits - 2)`, where `bits` is the bit length of the modulus (the language's documented
restriction); a comparison with a constant is always defined.
-/

namespace Zok

/-- Why an evaluation fails. -/
inductive Fault where
  /-- division of field elements by zero -/
  | divZero
  /-- division of unsigned integers by zero -/
  | uintDivZero
  /-- array index out of bounds -/
  | outOfBounds
  /-- a dynamic comparison of field elements outside of the range where it is defined -/
  | dynamicRange
  /-- a failed assertion -/
  | assertionFailed
  /-- a field element other than 0 and 1 is used as a boolean (`unsafe` cast) -/
  | notBool
  /-- the expression is ill-typed in the environment, or uses an operator the circuit language does not have -/
  | stuck
deriving DecidableEq, Repr

/-- Values of variables. -/
inductive ZVal (p : ℕ) where
  | field (v : ZMod p)
  | bool (b : Bool)
  | uint (w n : ℕ)
deriving DecidableEq, Repr

/-- Environments. -/
abbrev ZEnv (p : ℕ) := ZId → Option (ZVal p)

/-- Lookup of the selected element. -/
def selectVal {α : Type} (l : List α) (i : ℕ) : Except Fault α :=
  match l[i]? with
  | some a => .ok a
  | none => .error .outOfBounds

/-- Constants: literals, and powers with exponent zero. -/
def FExpr.isConst {F : Type} : FExpr F → Bool
  | .value _ => true
  | .pow _ (.mk _ _ (.value 0)) => true
  | _ => false

variable {p : ℕ}

/-- Whether a comparison of `a` and `b` is defined. -/
def cmpDefined (p : ℕ) (const : Bool) (a b : ZMod p) : Prop :=
  const = true ∨ (a.val < 2 ^ (Fld.requiredBits p - 2) ∧ b.val < 2 ^ (Fld.requiredBits p - 2))

instance (const : Bool) (a b : ZMod p) : Decidable (cmpDefined p const a b) := by
  unfold cmpDefined; infer_instance

mutual
/-- The value of a field expression. -/
def evalF [Fact p.Prime] (env : ZEnv p) : FExpr (ZMod p) → Except Fault (ZMod p)
  | .value n => .ok n
  | .ident x => match env x with
    | some (.field v) => .ok v
    | _ => .error .stuck
  | .select es i => do
    let k ← evalU env i
    let vs ← evalFs env es
    selectVal vs k
  | .add l r => do
    let a ← evalF env l
    let b ← evalF env r
    .ok (a + b)
  | .sub l r => do
    let a ← evalF env l
    let b ← evalF env r
    .ok (a - b)
  | .mult l r => do
    let a ← evalF env l
    let b ← evalF env r
    .ok (a * b)
  | .div l r => do
    let a ← evalF env l
    let b ← evalF env r
    if b = 0 then .error .divZero else .ok (a / b)
  | .pow e n => do
    let a ← evalF env e
    let k ← evalU env n
    .ok (a ^ k)
  | .cond c t e => do
    let b ← evalB env c
    let x ← evalF env t
    let y ← evalF env e
    .ok (if b then x else y)
  | .and _ _ | .or _ _ | .xor _ _ | .leftShift _ _ | .rightShift _ _ => .error .stuck
/-- The values of a list of field expressions. -/
def evalFs [Fact p.Prime] (env : ZEnv p) : List (FExpr (ZMod p)) → Except Fault (List (ZMod p))
  | [] => .ok []
  | e :: es => do
    let v ← evalF env e
    let vs ← evalFs env es
    .ok (v :: vs)
/-- The value of a boolean expression. -/
def evalB [Fact p.Prime] (env : ZEnv p) : BExpr (ZMod p) → Except Fault Bool
  | .value b => .ok b
  | .ident x => match env x with
    | some (.bool b) => .ok b
    | _ => .error .stuck
  | .select es i => do
    let k ← evalU env i
    let vs ← evalBs env es
    selectVal vs k
  | .fieldLt l r => do
    let a ← evalF env l
    let b ← evalF env r
    if cmpDefined p (l.isConst || r.isConst) a b then .ok (decide (a.val < b.val)) else .error .dynamicRange
  | .fieldLe l r => do
    let a ← evalF env l
    let b ← evalF env r
    if cmpDefined p (l.isConst || r.isConst) a b then .ok (decide (a.val ≤ b.val)) else .error .dynamicRange
  | .fieldEq l r => do
    let a ← evalF env l
    let b ← evalF env r
    .ok (decide (a = b))
  | .uintLt l r => do
    let a ← evalU env l
    let b ← evalU env r
    .ok (decide (a < b))
  | .uintLe l r => do
    let a ← evalU env l
    let b ← evalU env r
    .ok (decide (a ≤ b))
  | .uintEq l r => do
    let a ← evalU env l
    let b ← evalU env r
    .ok (decide (a = b))
  | .boolEq l r => do
    let a ← evalB env l
    let b ← evalB env r
    .ok (a == b)
  | .or l r => do
    let a ← evalB env l
    let b ← evalB env r
    .ok (a || b)
  | .and l r => do
    let a ← evalB env l
    let b ← evalB env r
    .ok (a && b)
  | .not e => do
    let a ← evalB env e
    .ok (!a)
  | .cond c t e => do
    let b ← evalB env c
    let x ← evalB env t
    let y ← evalB env e
    .ok (if b then x else y)
/-- The values of a list of boolean expressions. -/
def evalBs [Fact p.Prime] (env : ZEnv p) : List (BExpr (ZMod p)) → Except Fault (List Bool)
  | [] => .ok []
  | e :: es => do
    let v ← evalB env e
    let vs ← evalBs env es
    .ok (v :: vs)
/-- The value of an unsigned integer expression; metadata plays no role. -/
def evalU [Fact p.Prime] (env : ZEnv p) : UExpr (ZMod p) → Except Fault ℕ
  | .mk w _ i => evalUI env w i
/-- The values of a list of unsigned integer expressions. -/
def evalUs [Fact p.Prime] (env : ZEnv p) : List (UExpr (ZMod p)) → Except Fault (List ℕ)
  | [] => .ok []
  | e :: es => do
    let v ← evalU env e
    let vs ← evalUs env es
    .ok (v :: vs)
/-- The value of an unsigned integer expression of width `w`. -/
def evalUI [Fact p.Prime] (env : ZEnv p) (w : ℕ) : UInner (ZMod p) → Except Fault ℕ
  | .value n => .ok n
  | .ident x => match env x with
    | some (.uint w' n) => if w = w' then .ok n else .error .stuck
    | _ => .error .stuck
  | .select es i => do
    let k ← evalU env i
    let vs ← evalUs env es
    selectVal vs k
  | .add l r => do
    let a ← evalU env l
    let b ← evalU env r
    .ok ((a + b) % 2 ^ w)
  | .sub l r => do
    let a ← evalU env l
    let b ← evalU env r
    .ok ((a + (2 ^ w - b)) % 2 ^ w)
  | .mult l r => do
    let a ← evalU env l
    let b ← evalU env r
    .ok ((a * b) % 2 ^ w)
  | .div l r => do
    let a ← evalU env l
    let b ← evalU env r
    if b = 0 then .error .uintDivZero else .ok (a / b)
  | .rem l r => do
    let a ← evalU env l
    let b ← evalU env r
    if b = 0 then .error .uintDivZero else .ok (a % b)
  | .xor l r => do
    let a ← evalU env l
    let b ← evalU env r
    .ok (a ^^^ b)
  | .and l r => do
    let a ← evalU env l
    let b ← evalU env r
    .ok (a &&& b)
  | .or l r => do
    let a ← evalU env l
    let b ← evalU env r
    .ok (a ||| b)
  | .leftShift e n => do
    let a ← evalU env e
    let k ← evalU env n
    .ok ((a * 2 ^ k) % 2 ^ w)
  | .rightShift e n => do
    let a ← evalU env e
    let k ← evalU env n
    .ok (a / 2 ^ k)
  | .not e => do
    let a ← evalU env e
    .ok (2 ^ w - 1 - a)
  | .cond c t e => do
    let b ← evalB env c
    let x ← evalU env t
    let y ← evalU env e
    .ok (if b then x else y)
end

end Zok
