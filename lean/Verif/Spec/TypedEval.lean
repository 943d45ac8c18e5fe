import Verif.Model.FlattenTypes
import Verif.Model.DeadCode
import Verif.Spec.Abi
import Verif.Spec.ZirExec

/-
Specification: the meaning of typed programs. Values are those of the ABI (`AVal`): field elements, booleans, unsigned integers, arrays, structs and
tuples. As for ZIR, evaluation is eager (both branches of a conditional are evaluated) and can fail with a `Fault`; a comparison of field elements is
defined as in `Spec/ZirEval.lean`. An assignment evaluates its right side and then replaces the assigned part of the variable. Execution is a relation
because the result of some embedded functions is chosen by the prover (`Oracle`).
-/

namespace Zok.Abi

mutual
/-- Array sizes are `u32`. -/
def CType.Small : CType → Prop
  | .array n t => n < 2 ^ 32 ∧ t.Small
  | .struct ms => SmallM ms
  | .tuple ts => SmallL ts
  | _ => True
/-- For every element. -/
def SmallL : List CType → Prop
  | [] => True
  | t :: ts => t.Small ∧ SmallL ts
/-- For every member. -/
def SmallM : List (Str × CType) → Prop
  | [] => True
  | (_, t) :: ts => t.Small ∧ SmallM ts
end

end Zok.Abi

namespace Zok.Typed
open Abi
variable {p : ℕ}

/-- The value of a field element. -/
def asField : AVal (ZMod p) → Except Fault (ZMod p)
  | .field x => .ok x
  | _ => .error .stuck
/-- The value of a boolean. -/
def asBool : AVal (ZMod p) → Except Fault Bool
  | .bool b => .ok b
  | _ => .error .stuck
/-- The value of an unsigned integer of width `w`. -/
def asUint (w : UW) : AVal (ZMod p) → Except Fault ℕ
  | .uint w' n => if w' = w then .ok n else .error .stuck
  | _ => .error .stuck
/-- The value of an unsigned integer of the given type. -/
def asUintOf : CType → AVal (ZMod p) → Except Fault ℕ
  | .uint w, v => asUint w v
  | _, _ => .error .stuck
/-- The elements of an array. -/
def asArray : AVal (ZMod p) → Except Fault (List (AVal (ZMod p)))
  | .array vs => .ok vs
  | _ => .error .stuck

/-- Environments. -/
abbrev TEnv (p : ℕ) := TId → Option (AVal (ZMod p))

/-- Constants: literals, and powers with exponent zero. -/
def TExpr.isConst {F : Type} : TExpr F → Bool
  | .fval _ => true
  | .fubin .pow _ (.uval _ 0) => true
  | _ => false

/-- Operations on field elements. -/
def FOp.eval [Fact p.Prime] : FOp → ZMod p → ZMod p → Except Fault (ZMod p)
  | .add, a, b => .ok (a + b)
  | .sub, a, b => .ok (a - b)
  | .mult, a, b => .ok (a * b)
  | .div, a, b => if b = 0 then .error .divZero else .ok (a / b)
  | _, _, _ => .error .stuck

/-- Operations on integers of `w` bits. -/
def UOp.eval (w : ℕ) : UOp → ℕ → ℕ → Except Fault ℕ
  | .add, a, b => .ok ((a + b) % 2 ^ w)
  | .sub, a, b => .ok ((a + (2 ^ w - b)) % 2 ^ w)
  | .mult, a, b => .ok ((a * b) % 2 ^ w)
  | .div, a, b => if b = 0 then .error .uintDivZero else .ok (a / b)
  | .rem, a, b => if b = 0 then .error .uintDivZero else .ok (a % b)
  | .xor, a, b => .ok (a ^^^ b)
  | .and, a, b => .ok (a &&& b)
  | .or, a, b => .ok (a ||| b)
  | .shl, a, k => .ok ((a * 2 ^ k) % 2 ^ w)
  | .shr, a, k => .ok (a / 2 ^ k)

/-- The width of the right operand: shifts are by a `u32`. -/
def UOp.rightWidth (w : UW) : UOp → UW
  | .shl => .b32
  | .shr => .b32
  | _ => w

section
variable [Fact p.Prime]

open Classical in
mutual
/-- The value of an expression. -/
noncomputable def evalT (env : TEnv p) : TExpr (ZMod p) → Except Fault (AVal (ZMod p))
  | .fval n => .ok (.field n)
  | .bval b => .ok (.bool b)
  | .uval w n => .ok (.uint w n)
  | .ident x t => match env x with
    | some v => if HasType t v then .ok v else .error .stuck
    | none => .error .stuck
  | .fbin op l r => do
    let a ← (evalT env l).bind asField
    let b ← (evalT env r).bind asField
    let c ← op.eval a b
    .ok (.field c)
  | .fubin op l r => do
    let a ← (evalT env l).bind asField
    let k ← (evalT env r).bind (asUint .b32)
    if op = .pow then .ok (.field (a ^ k)) else .error .stuck
  | .fneg e => do
    let a ← (evalT env e).bind asField
    .ok (.field (-a))
  | .fpos e => do
    let a ← (evalT env e).bind asField
    .ok (.field a)
  | .ubin w op l r => do
    let a ← (evalT env l).bind (asUint w)
    let b ← (evalT env r).bind (asUint (op.rightWidth w))
    let c ← op.eval w.bits a b
    .ok (.uint w c)
  | .unot w e => do
    let a ← (evalT env e).bind (asUint w)
    .ok (.uint w (2 ^ w.bits - 1 - a))
  | .uneg w e => do
    let a ← (evalT env e).bind (asUint w)
    .ok (.uint w ((2 ^ w.bits - a) % 2 ^ w.bits))
  | .upos w e => do
    let a ← (evalT env e).bind (asUint w)
    .ok (.uint w a)
  | .bbin op l r => do
    let a ← (evalT env l).bind asBool
    let b ← (evalT env r).bind asBool
    .ok (.bool (match op with | .and => a && b | .or => a || b))
  | .bnot e => do
    let a ← (evalT env e).bind asBool
    .ok (.bool (!a))
  | .fcmp op l r => do
    let a ← (evalT env l).bind asField
    let b ← (evalT env r).bind asField
    if cmpDefined p (l.isConst || r.isConst) a b then
      .ok (.bool (match op with | .lt => decide (a.val < b.val) | .le => decide (a.val ≤ b.val)))
    else .error .dynamicRange
  | .ucmp op l r => do
    let a ← (evalT env l).bind (asUintOf l.ty)
    let b ← (evalT env r).bind (asUintOf l.ty)
    .ok (.bool (match op with | .lt => decide (a < b) | .le => decide (a ≤ b)))
  | .eq l r => do
    let a ← evalT env l
    let b ← evalT env r
    .ok (.bool (decide (a = b)))
  | .cond _ c a b => do
    let k ← (evalT env c).bind asBool
    let x ← evalT env a
    let y ← evalT env b
    .ok (if k then x else y)
  | .select _ a i => do
    let vs ← (evalT env a).bind asArray
    let k ← (evalT env i).bind (asUint .b32)
    selectVal vs k
  | .member _ s m => do
    match ← evalT env s with
    | .struct ms => match ms.lookup m with
      | some v => .ok v
      | none => .error .stuck
    | _ => .error .stuck
  | .element _ e i => do
    match ← evalT env e with
    | .tuple vs => match vs[i]? with
      | some v => .ok v
      | none => .error .stuck
    | _ => .error .stuck
  | .array _ _ es => do
    let vs ← evalS env es
    .ok (.array vs)
  | .slice _ _ a lo hi => do
    let vs ← (evalT env a).bind asArray
    let l ← (evalT env lo).bind (asUint .b32)
    let h ← (evalT env hi).bind (asUint .b32)
    if l ≤ h ∧ h ≤ vs.length then .ok (.array ((vs.take h).drop l)) else .error .outOfBounds
  | .repeat_ _ _ e count => do
    let v ← evalT env e
    let k ← (evalT env count).bind (asUint .b32)
    .ok (.array (List.replicate k v))
  | .struct ms es => do
    let vs ← evalL env es
    .ok (.struct ((ms.map Prod.fst).zip vs))
  | .tuple _ es => do
    let vs ← evalL env es
    .ok (.tuple vs)
  | .removed _ => .error .stuck
/-- The values of a list of expressions. -/
noncomputable def evalL (env : TEnv p) : List (TExpr (ZMod p)) → Except Fault (List (AVal (ZMod p)))
  | [] => .ok []
  | e :: es => do
    let v ← evalT env e
    let vs ← evalL env es
    .ok (v :: vs)
/-- The elements of an array value, in which the elements of a spread array are inserted. -/
noncomputable def evalS (env : TEnv p) : List (TSpread (ZMod p)) → Except Fault (List (AVal (ZMod p)))
  | [] => .ok []
  | .expr e :: es => do
    let v ← evalT env e
    let vs ← evalS env es
    .ok (v :: vs)
  | .spread e :: es => do
    let v ← (evalT env e).bind asArray
    let vs ← evalS env es
    .ok (v ++ vs)
end

/-! ### Well-typed expressions -/

/-- Types without `int` whose structs have distinct member names, and whose array sizes are `u32`. -/
def TypeOk (t : CType) : Prop := (t.Distinct ∧ t.Small) ∧ (primCount t).isSome

/-- The number of elements of an array with the given elements and spreads. -/
def spreadCount {F : Type} (t : CType) : List (TSpread F) → ℕ → Prop
  | [], n => n = 0
  | .expr _ :: es, n => ∃ k, n = k + 1 ∧ spreadCount t es k
  | .spread e :: es, n => ∃ m k, e.ty = .array m t ∧ n = m + k ∧ spreadCount t es k

mutual
/-- Well-typed expressions: the annotations agree, and the bounds of slices and the counts of repetitions are literals. -/
def TExpr.Wt {F : Type} : TExpr F → Prop
  | .fval _ => True
  | .bval _ => True
  | .uval w n => n < 2 ^ w.bits
  | .ident _ t => TypeOk t
  | .fbin _ l r => l.ty = .field ∧ r.ty = .field ∧ l.Wt ∧ r.Wt
  | .fubin _ l r => l.ty = .field ∧ r.ty = .uint .b32 ∧ l.Wt ∧ r.Wt
  | .fneg e => e.ty = .field ∧ e.Wt
  | .fpos e => e.ty = .field ∧ e.Wt
  | .ubin w op l r => l.ty = .uint w ∧ r.ty = .uint (op.rightWidth w) ∧ l.Wt ∧ r.Wt
  | .unot w e => e.ty = .uint w ∧ e.Wt
  | .uneg w e => e.ty = .uint w ∧ e.Wt
  | .upos w e => e.ty = .uint w ∧ e.Wt
  | .bbin _ l r => l.ty = .bool ∧ r.ty = .bool ∧ l.Wt ∧ r.Wt
  | .bnot e => e.ty = .bool ∧ e.Wt
  | .fcmp _ l r => l.ty = .field ∧ r.ty = .field ∧ l.Wt ∧ r.Wt
  | .ucmp _ l r => (∃ w, l.ty = .uint w ∧ r.ty = .uint w) ∧ l.Wt ∧ r.Wt
  | .eq l r => l.ty = r.ty ∧ TypeOk l.ty ∧ l.Wt ∧ r.Wt
  | .cond t c a b => c.ty = .bool ∧ a.ty = t ∧ b.ty = t ∧ c.Wt ∧ a.Wt ∧ b.Wt
  | .select t a i => (∃ n, a.ty = .array n t) ∧ i.ty = .uint .b32 ∧ a.Wt ∧ i.Wt
  | .member t s m => (∃ ms, s.ty = .struct ms ∧ ms.lookup m = some t) ∧ s.Wt
  | .element t e i => (∃ ts, e.ty = .tuple ts ∧ ts[i]? = some t) ∧ e.Wt
  | .array t n es => TypeOk t ∧ spreadCount t es n ∧ WtS t es
  | .slice t n a lo hi => (∃ k l h, a.ty = .array k t ∧ lo = .uval .b32 l ∧ hi = .uval .b32 h ∧ l ≤ h ∧ h ≤ k ∧ n = h - l) ∧ a.Wt
  | .repeat_ t n e count => (TypeOk t ∧ e.ty = t) ∧ count = .uval .b32 n ∧ e.Wt
  | .struct ms es => (ms.map Prod.fst).Nodup ∧ es.map TExpr.ty = ms.map Prod.snd ∧ WtL es
  | .tuple ts es => es.map TExpr.ty = ts ∧ WtL es
  | .removed _ => False
/-- Lists of well-typed expressions. -/
def WtL {F : Type} : List (TExpr F) → Prop
  | [] => True
  | e :: es => e.Wt ∧ WtL es
/-- Elements and spreads of arrays with elements of type `t`. -/
def WtS {F : Type} (t : CType) : List (TSpread F) → Prop
  | [] => True
  | .expr e :: es => (e.ty = t ∧ e.Wt) ∧ WtS t es
  | .spread e :: es => e.Wt ∧ WtS t es
end

/-! ### Statements -/

mutual
/-- The field elements, booleans and integers a value consists of, in order. -/
def prims : AVal (ZMod p) → List (ZVal p)
  | .field x => [.field x]
  | .uint w n => [.uint w.bits n]
  | .bool b => [.bool b]
  | .array vs => primsL vs
  | .tuple vs => primsL vs
  | .struct ms => primsM ms
/-- The components of a list of values. -/
def primsL : List (AVal (ZMod p)) → List (ZVal p)
  | [] => []
  | v :: vs => prims v ++ primsL vs
/-- The components of the members of a struct. -/
def primsM : List (Str × AVal (ZMod p)) → List (ZVal p)
  | [] => []
  | (_, v) :: vs => prims v ++ primsM vs
end

/-- The value of the part of a variable an assignee denotes. -/
noncomputable def getA (env : TEnv p) : TAssignee (ZMod p) → Except Fault (AVal (ZMod p))
  | .ident x t => evalT env (.ident x t)
  | .select a i => do
    let vs ← (getA env a).bind asArray
    let k ← (evalT env i).bind (asUint .b32)
    selectVal vs k
  | .member a m => do
    match ← getA env a with
    | .struct ms => match ms.lookup m with
      | some v => .ok v
      | none => .error .stuck
    | _ => .error .stuck
  | .element a i => do
    match ← getA env a with
    | .tuple vs => match vs[i]? with
      | some v => .ok v
      | none => .error .stuck
    | _ => .error .stuck

/-- The value of the variable after the assignment of `new` to its part: the other parts keep their values. -/
noncomputable def setA (env : TEnv p) : TAssignee (ZMod p) → AVal (ZMod p) → Except Fault (AVal (ZMod p))
  | .ident _ _, new => .ok new
  | .select a i, new => do
    let vs ← (getA env a).bind asArray
    let k ← (evalT env i).bind (asUint .b32)
    if k < vs.length then setA env a (.array (vs.set k new)) else .error .outOfBounds
  | .member a m, new => do
    match ← getA env a with
    | .struct ms => setA env a (.struct (ms.map fun kv => if kv.1 = m then (kv.1, new) else kv))
    | _ => .error .stuck
  | .element a i, new => do
    match ← getA env a with
    | .tuple vs => setA env a (.tuple (vs.set i new))
    | _ => .error .stuck

/-- The state: the values of the variables, and the value returned. -/
structure TState (p : ℕ) where
  env : TEnv p
  out : Option (AVal (ZMod p))

/-- Assign a variable. -/
def TState.set (σ : TState p) (x : TId) (v : AVal (ZMod p)) : TState p :=
  { σ with env := fun y => if y = x then some v else σ.env y }

variable {Z : Type}

/-- Execution of a statement. -/
inductive ExecT (O : Oracle p Z) : TState p → TStmt (ZMod p) → Except Fault (TState p) → Prop
  | ret {σ e v} : evalT σ.env e = .ok v → ExecT O σ (.ret e) (.ok { σ with out := some v })
  | retFault {σ e f} : evalT σ.env e = .error f → ExecT O σ (.ret e) (.error f)
  | definition {σ a e v u} : evalT σ.env e = .ok v → setA σ.env a v = .ok u → ExecT O σ (.definition a e) (.ok (σ.set a.root u))
  | rhsFault {σ a e f} : evalT σ.env e = .error f → ExecT O σ (.definition a e) (.error f)
  | lhsFault {σ a e v f} : evalT σ.env e = .ok v → setA σ.env a v = .error f → ExecT O σ (.definition a e) (.error f)
  /-- the result of an embedded function is the value of the type of the assignee with the components the function returns -/
  | embed {σ a embed g args vs v t u} : evalL σ.env args = .ok vs → a.ty = some t → HasType t v → EmbedRes O embed g (primsL vs) (.ok (prims v)) →
      setA σ.env a v = .ok u → ExecT O σ (.embed a embed g args) (.ok (σ.set a.root u))
  | argsFault {σ a embed g args f} : evalL σ.env args = .error f → ExecT O σ (.embed a embed g args) (.error f)
  | embedFault {σ a embed g args vs f} : evalL σ.env args = .ok vs → EmbedRes O embed g (primsL vs) (.error f) →
      ExecT O σ (.embed a embed g args) (.error f)
  | embedLhsFault {σ a embed g args vs v t f} : evalL σ.env args = .ok vs → a.ty = some t → HasType t v →
      EmbedRes O embed g (primsL vs) (.ok (prims v)) → setA σ.env a v = .error f → ExecT O σ (.embed a embed g args) (.error f)
  | assertOk {σ e err} : evalT σ.env e = .ok (.bool true) → ExecT O σ (.assertion e err) (.ok σ)
  | assertFailed {σ e err} : evalT σ.env e = .ok (.bool false) → ExecT O σ (.assertion e err) (.error .assertionFailed)
  | assertFault {σ e err f} : evalT σ.env e = .error f → ExecT O σ (.assertion e err) (.error f)
  | log {σ es vs} : evalL σ.env es = .ok vs → ExecT O σ (.log es) (.ok σ)
  | logFault {σ es f} : evalL σ.env es = .error f → ExecT O σ (.log es) (.error f)

/-- Execution of a list of statements. -/
inductive ExecTs (O : Oracle p Z) : TState p → List (TStmt (ZMod p)) → Except Fault (TState p) → Prop
  | nil {σ} : ExecTs O σ [] (.ok σ)
  | fault {σ s ss f} : ExecT O σ s (.error f) → ExecTs O σ (s :: ss) (.error f)
  | cons {σ s ss σ' r} : ExecT O σ s (.ok σ') → ExecTs O σ' ss r → ExecTs O σ (s :: ss) r

/-- Assign variables, one after the other. -/
def TState.setAll (σ : TState p) : List TId → List (AVal (ZMod p)) → TState p
  | x :: xs, v :: vs => (σ.set x v).setAll xs vs
  | _, _ => σ

/-- The initial state: the parameters have the given values. -/
def initT (f : TFun (ZMod p)) (args : List (AVal (ZMod p))) : TState p :=
  (⟨fun _ => none, none⟩ : TState p).setAll (f.params.map TParam.id) args

/-- The function can return `out` on the arguments `args`, which have the types of the parameters. -/
def ReturnsT (O : Oracle p Z) (f : TFun (ZMod p)) (args : List (AVal (ZMod p))) (out : AVal (ZMod p)) : Prop :=
  HasTypeL (f.params.map TParam.ty) args ∧ ∃ σ, ExecTs O (initT f args) f.body (.ok σ) ∧ σ.out = some out

/-- The function can fail with the fault `e` on the arguments `args`. -/
def FaultsT (O : Oracle p Z) (f : TFun (ZMod p)) (args : List (AVal (ZMod p))) (e : Fault) : Prop :=
  HasTypeL (f.params.map TParam.ty) args ∧ ExecTs O (initT f args) f.body (.error e)

/-- On the arguments `args` an assertion of the function fails: the statements in front of it are executed, and then its condition is false. -/
def AssertFailsT (O : Oracle p Z) (f : TFun (ZMod p)) (args : List (AVal (ZMod p))) : Prop :=
  HasTypeL (f.params.map TParam.ty) args ∧ ∃ pre e err post σ, f.body = pre ++ .assertion e err :: post ∧
    ExecTs O (initT f args) pre (.ok σ) ∧ evalT σ.env e = .ok (.bool false)

end

/-! ### Well-typed statements -/

/-- Well-typed assignees. -/
def TAssignee.Wt {F : Type} : TAssignee F → Prop
  | .ident _ t => TypeOk t
  | .select a i => (∃ n t, a.ty = some (.array n t)) ∧ i.ty = .uint .b32 ∧ i.Wt ∧ a.Wt
  | .member a m => (∃ ms t, a.ty = some (.struct ms) ∧ ms.lookup m = some t) ∧ a.Wt
  | .element a i => (∃ ts t, a.ty = some (.tuple ts) ∧ ts[i]? = some t) ∧ a.Wt

/-- The result types of the embedded functions (`typed_signature`, `zokrates_ast/src/common/embed.rs:198-293`). -/
def embedTy : Embed → List ℕ → Option CType
  | .fieldToBoolUnsafe, _ => some .bool
  | .bitArrayLe, _ => some .bool
  | .unpack, [n] => some (.array n .bool)
  | .uToBits w, _ => some (.array w .bool)
  | .uFromBits 8, _ => some (.uint .b8)
  | .uFromBits 16, _ => some (.uint .b16)
  | .uFromBits 32, _ => some (.uint .b32)
  | .uFromBits 64, _ => some (.uint .b64)
  | _, _ => none

/-- Well-typed statements in a function with return type `r`. -/
def TStmt.Wt {F : Type} (r : CType) : TStmt F → Prop
  | .ret e => e.ty = r ∧ e.Wt
  | .definition a e => a.ty = some e.ty ∧ a.Wt ∧ e.Wt
  | .embed a f g args => (∃ t, embedTy f g = some t ∧ a.ty = some t) ∧ a.Wt ∧ WtL args
  | .assertion e _ => e.ty = .bool ∧ e.Wt
  | .log es => WtL es

/-- Well-typed functions. -/
structure TFun.Wt {F : Type} (f : TFun F) : Prop where
  params : ∀ q ∈ f.params, TypeOk q.ty
  ret : TypeOk f.ret
  body : ∀ s ∈ f.body, s.Wt f.ret

mutual
/-- The variables of an expression. -/
def TExpr.vars {F : Type} : TExpr F → List TId
  | .fval _ | .bval _ | .uval _ _ | .removed _ => []
  | .ident x _ => [x]
  | .fbin _ l r | .fubin _ l r | .ubin _ _ l r | .bbin _ l r | .fcmp _ l r | .ucmp _ l r | .eq l r => l.vars ++ r.vars
  | .fneg e | .fpos e | .unot _ e | .uneg _ e | .upos _ e | .bnot e => e.vars
  | .cond _ c a b => c.vars ++ a.vars ++ b.vars
  | .select _ a i => a.vars ++ i.vars
  | .member _ e _ | .element _ e _ => e.vars
  | .array _ _ es => varsS es
  | .slice _ _ a lo hi => a.vars ++ lo.vars ++ hi.vars
  | .repeat_ _ _ e c => e.vars ++ c.vars
  | .struct _ es | .tuple _ es => varsL es
/-- The variables of a list of expressions. -/
def varsL {F : Type} : List (TExpr F) → List TId
  | [] => []
  | e :: es => e.vars ++ varsL es
/-- The variables of the elements of an array. -/
def varsS {F : Type} : List (TSpread F) → List TId
  | [] => []
  | .expr e :: es => e.vars ++ varsS es
  | .spread e :: es => e.vars ++ varsS es
end

/-- No expression reads a variable that is assigned before it is evaluated, when the definitions are executed one after the other. -/
def ReadBeforeWrite {F : Type} : List ZId → List (ZExpr F) → Prop
  | x :: xs, _ :: es => (∀ e ∈ es, x ∉ Dce.idsZ e) ∧ ReadBeforeWrite xs es
  | _, _ => True

/-- A definition whose components can be assigned one after the other: the assigned part has at most one component, or the right side does not
read the assigned variable, or at least its components only read components that have not been assigned yet. Static single assignment form gives this for
assignments to whole variables, but not for assignments to parts of them. -/
def TStmt.Simultaneous {F : Type} [Zero F] (nm : SId → ZId) : TStmt F → Prop
  | .definition a e => a.root ∉ e.vars ∨ (∃ t c, a.ty = some t ∧ primCount t = some c ∧ c ≤ 1) ∨
      ∃ as es, flatA a = some as ∧ flat nm e = some es ∧ ReadBeforeWrite (as.map fun a => nm a.1) es
  | _ => True

mutual
/-- Selects are in bounds, as far as this is visible: an index that flattens to a literal is in bounds, and selects with other indices are from non-empty
arrays whose elements have at least one component (the code panics on others). -/
def TExpr.Selects {F : Type} [Zero F] (nm : SId → ZId) : TExpr F → Prop
  | .fval _ | .bval _ | .uval _ _ | .removed _ | .ident _ _ => True
  | .fbin _ l r | .fubin _ l r | .ubin _ _ l r | .bbin _ l r | .fcmp _ l r | .ucmp _ l r | .eq l r => l.Selects nm ∧ r.Selects nm
  | .fneg e | .fpos e | .unot _ e | .uneg _ e | .upos _ e | .bnot e | .member _ e _ | .element _ e _ => e.Selects nm
  | .cond _ c a b => c.Selects nm ∧ a.Selects nm ∧ b.Selects nm
  | .select _ a i => (∀ n t u, a.ty = .array n t → (flat nm i).bind popU = some u → match u.inner with
      | .value k => k < n
      | _ => 0 < n ∧ primCount t ≠ some 0) ∧ a.Selects nm ∧ i.Selects nm
  | .array _ _ es => SelectsS nm es
  | .slice _ _ a _ _ => a.Selects nm
  | .repeat_ _ _ e _ => e.Selects nm
  | .struct _ es | .tuple _ es => SelectsL nm es
/-- For a list of expressions. -/
def SelectsL {F : Type} [Zero F] (nm : SId → ZId) : List (TExpr F) → Prop
  | [] => True
  | e :: es => e.Selects nm ∧ SelectsL nm es
/-- For the elements of an array. -/
def SelectsS {F : Type} [Zero F] (nm : SId → ZId) : List (TSpread F) → Prop
  | [] => True
  | .expr e :: es => e.Selects nm ∧ SelectsS nm es
  | .spread e :: es => e.Selects nm ∧ SelectsS nm es
end

/-- The indices of an assignee are literals in bounds. -/
def TAssignee.InBounds {F : Type} : TAssignee F → Prop
  | .ident _ _ => True
  | .select a i => (∃ n t w k, a.ty = some (.array n t) ∧ i = .uval w k ∧ k < n) ∧ a.InBounds
  | .member a _ | .element a _ => a.InBounds

/-- For all expressions and assignees of a statement. -/
def TStmt.Selects {F : Type} [Zero F] (nm : SId → ZId) : TStmt F → Prop
  | .ret e => e.Selects nm
  | .definition a e => a.InBounds ∧ e.Selects nm
  | .embed a _ _ args => a.InBounds ∧ SelectsL nm args
  | .assertion e _ => e.Selects nm
  | .log es => SelectsL nm es

/-- The variable a statement assigns. -/
def TStmt.assigns {F : Type} : TStmt F → List TId
  | .definition a _ | .embed a _ _ _ => [a.root]
  | _ => []

/-- Calls of embedded functions assign variables that have not been assigned before: static single assignment form. -/
def FreshCalls {F : Type} : List TId → List (TStmt F) → Prop
  | _, [] => True
  | seen, s :: ss => (∀ a f g args, s = .embed a f g args → a.root ∉ seen) ∧ FreshCalls (s.assigns ++ seen) ss

/-- No bit decompositions of field elements. -/
def TStmt.OracleFree {F : Type} : TStmt F → Prop
  | .embed _ f _ _ => f ≠ .unpack
  | _ => True

end Zok.Typed
