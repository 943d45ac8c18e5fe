import Verif.Model.Reducer
import Verif.Spec.TypedPropagator
import Verif.Spec.Replaces

/-
Specification: the meaning of programs with loops and function calls (`SStmt`, `Program`), and which of them are well-formed. A loop runs its body once for every value of
its index; a call evaluates its arguments, runs the body of the function in a state in which only the parameters and the generic parameters have values, and yields the
value of the returned expression.
-/

namespace Zok.Typed
open Abi
variable {p : ℕ} {Z : Type}

section
variable [Fact p.Prime]

/-- The state in which the body of a function starts: the parameters have the values of the arguments, and the generic parameters their values. -/
def calleeState (i : Inst (ZMod p)) (vs : List (AVal (ZMod p))) : TState p :=
  ((⟨fun _ => none, none⟩ : TState p).setAll i.params vs).setAll (i.generics.map Prod.fst) (i.generics.map fun g => .uint .b32 g.2)

mutual
/-- Execution of a statement. -/
inductive ExecS (O : Oracle p Z) (P : Program (ZMod p)) : TState p → SStmt (ZMod p) → Except Fault (TState p) → Prop
  | simple {σ s r} : ExecT O σ s r → ExecS O P σ (.simple s) r
  | loop {σ x lo hi body l h r} : evalT σ.env lo = .ok (.uint .b32 l) → evalT σ.env hi = .ok (.uint .b32 h) → ExecLoop O P σ x body l (h - l) r →
      ExecS O P σ (.for_ x lo hi body) r
  | loFault {σ x lo hi body f} : evalT σ.env lo = .error f → ExecS O P σ (.for_ x lo hi body) (.error f)
  | hiFault {σ x lo hi body v f} : evalT σ.env lo = .ok v → evalT σ.env hi = .error f → ExecS O P σ (.for_ x lo hi body) (.error f)
  | call {σ a t key gens args v u} : ExecCall O P σ t key gens args (.ok v) → setA σ.env a v = .ok u → ExecS O P σ (.call a t key gens args) (.ok (σ.set a.root u))
  | callFault {σ a t key gens args f} : ExecCall O P σ t key gens args (.error f) → ExecS O P σ (.call a t key gens args) (.error f)
  | lhsFault {σ a t key gens args v f} : ExecCall O P σ t key gens args (.ok v) → setA σ.env a v = .error f → ExecS O P σ (.call a t key gens args) (.error f)
/-- The value of a call. -/
inductive ExecCall (O : Oracle p Z) (P : Program (ZMod p)) : TState p → CType → ℕ → List (TExpr (ZMod p)) → List (TExpr (ZMod p)) → Except Fault (AVal (ZMod p)) → Prop
  | here {σ t key gens args ns vs i σ1} : evalL σ.env gens = .ok (ns.map (AVal.uint .b32)) → evalL σ.env args = .ok vs →
      P key ns (args.map TExpr.ty) t = some (.here i) → ExecSs O P (calleeState i vs) i.body (.ok σ1) → ExecCall O P σ t key gens args (evalT σ1.env i.ret)
  | hereFault {σ t key gens args ns vs i f} : evalL σ.env gens = .ok (ns.map (AVal.uint .b32)) → evalL σ.env args = .ok vs →
      P key ns (args.map TExpr.ty) t = some (.here i) → ExecSs O P (calleeState i vs) i.body (.error f) → ExecCall O P σ t key gens args (.error f)
  | flat {σ t key gens args ns vs f g v} : evalL σ.env gens = .ok (ns.map (AVal.uint .b32)) → evalL σ.env args = .ok vs →
      P key ns (args.map TExpr.ty) t = some (.flat f g) → HasType t v → EmbedRes O f g (primsL vs) (.ok (prims v)) → ExecCall O P σ t key gens args (.ok v)
  | flatFault {σ t key gens args ns vs f g e} : evalL σ.env gens = .ok (ns.map (AVal.uint .b32)) → evalL σ.env args = .ok vs →
      P key ns (args.map TExpr.ty) t = some (.flat f g) → EmbedRes O f g (primsL vs) (.error e) → ExecCall O P σ t key gens args (.error e)
  | gensFault {σ t key gens args f} : evalL σ.env gens = .error f → ExecCall O P σ t key gens args (.error f)
  | argsFault {σ t key gens args vs f} : evalL σ.env gens = .ok vs → evalL σ.env args = .error f → ExecCall O P σ t key gens args (.error f)
/-- Execution of a list of statements. -/
inductive ExecSs (O : Oracle p Z) (P : Program (ZMod p)) : TState p → List (SStmt (ZMod p)) → Except Fault (TState p) → Prop
  | nil {σ} : ExecSs O P σ [] (.ok σ)
  | fault {σ s ss f} : ExecS O P σ s (.error f) → ExecSs O P σ (s :: ss) (.error f)
  | cons {σ s ss σ' r} : ExecS O P σ s (.ok σ') → ExecSs O P σ' ss r → ExecSs O P σ (s :: ss) r
/-- Execution of `n` iterations of a loop, the first one with index `i`. -/
inductive ExecLoop (O : Oracle p Z) (P : Program (ZMod p)) : TState p → TId → List (SStmt (ZMod p)) → ℕ → ℕ → Except Fault (TState p) → Prop
  | done {σ x body i} : ExecLoop O P σ x body i 0 (.ok σ)
  | fault {σ x body i n f} : ExecSs O P (σ.set x (.uint .b32 i)) body (.error f) → ExecLoop O P σ x body i (n + 1) (.error f)
  | step {σ x body i n σ' r} : ExecSs O P (σ.set x (.uint .b32 i)) body (.ok σ') → ExecLoop O P σ' x body (i + 1) n r → ExecLoop O P σ x body i (n + 1) r
end

/-- The initial state of the main function. -/
def initS (f : SFun (ZMod p)) (args : List (AVal (ZMod p))) : TState p := (⟨fun _ => none, none⟩ : TState p).setAll (f.params.map TParam.id) args

/-- The program can return `out` on the arguments `args`, which have the types of the parameters. -/
def ReturnsS (O : Oracle p Z) (P : Program (ZMod p)) (f : SFun (ZMod p)) (args : List (AVal (ZMod p))) (out : AVal (ZMod p)) : Prop :=
  HasTypeL (f.params.map TParam.ty) args ∧ ∃ σ, ExecSs O P (initS f args) f.body (.ok σ) ∧ σ.out = some out

/-- The program can fail with the fault `e` on the arguments `args`. -/
def FaultsS (O : Oracle p Z) (P : Program (ZMod p)) (f : SFun (ZMod p)) (args : List (AVal (ZMod p))) (e : Fault) : Prop :=
  HasTypeL (f.params.map TParam.ty) args ∧ ExecSs O P (initS f args) f.body (.error e)

/-- The function `g`, which has neither loops nor calls, can replace the program: whatever the program returns is returned by `g`; whatever `g` returns is returned by the
program unless it can fail on these arguments; `g` fails only where the program fails; and where an assertion of the program fails, an assertion of `g` fails. -/
structure ReplacesS (O : Oracle p Z) (P : Program (ZMod p)) (f : SFun (ZMod p)) (g : TFun (ZMod p)) : Prop where
  results : ∀ args out, ReturnsS O P f args out → ReturnsT O g args out
  noNewResults : ∀ args out, ReturnsT O g args out → ReturnsS O P f args out ∨ ∃ e, FaultsS O P f args e
  noNewFailures : ∀ args e, FaultsT O g args e → ∃ e', FaultsS O P f args e'
  assertions : ∀ args, FaultsS O P f args .assertionFailed → AssertFailsT O g args

end

/-! ### Well-formed programs -/

variable {F : Type}

mutual
/-- Expressions without slices. -/
def TExpr.NoSlice : TExpr F → Prop
  | .fval _ | .bval _ | .uval _ _ | .removed _ | .ident _ _ => True
  | .fbin _ l r | .fubin _ l r | .ubin _ _ l r | .bbin _ l r | .fcmp _ l r | .ucmp _ l r | .eq l r => l.NoSlice ∧ r.NoSlice
  | .fneg e | .fpos e | .unot _ e | .uneg _ e | .upos _ e | .bnot e => e.NoSlice
  | .cond _ c a b => c.NoSlice ∧ a.NoSlice ∧ b.NoSlice
  | .select _ a i => a.NoSlice ∧ i.NoSlice
  | .member _ e _ | .element _ e _ => e.NoSlice
  | .array _ _ es => NoSliceS es
  | .slice _ _ _ _ _ => False
  | .repeat_ _ _ e c => e.NoSlice ∧ c.NoSlice
  | .struct _ es | .tuple _ es => NoSliceL es
/-- For a list of expressions. -/
def NoSliceL : List (TExpr F) → Prop
  | [] => True
  | e :: es => e.NoSlice ∧ NoSliceL es
/-- For the elements of an array. -/
def NoSliceS : List (TSpread F) → Prop
  | [] => True
  | .expr e :: es => e.NoSlice ∧ NoSliceS es
  | .spread e :: es => e.NoSlice ∧ NoSliceS es
end

/-- An expression which can be assigned to the variable `x`: it does not read `x`, or has no slices. (The reducer miscompiles others, see `C56_bug_slice`.) -/
def TExpr.MayDefine (x : TId) (e : TExpr F) : Prop := x ∉ e.vars ∨ e.NoSlice

mutual
/-- Well-typed statements in a function with return type `r`. Calls of embedded functions are calls, not simple statements. -/
def SStmt.Wt (r : CType) : SStmt F → Prop
  | .simple (.embed _ _ _ _) => False
  | .simple (.definition a e) => (TStmt.definition a e).Wt r ∧ ∀ x t, a = .ident x t → e.MayDefine x
  | .simple s => s.Wt r
  | .call a t _ gens args => a.ty = some t ∧ a.Wt ∧ (∀ e ∈ gens, e.ty = .uint .b32 ∧ e.Wt) ∧ (∀ e ∈ args, e.Wt) ∧ ∀ x t, a = .ident x t → ∀ e ∈ gens ++ args, e.MayDefine x
  | .for_ _ lo hi body => lo.ty = .uint .b32 ∧ lo.Wt ∧ hi.ty = .uint .b32 ∧ hi.Wt ∧ WtSs r body
/-- For all statements of a list. -/
def WtSs (r : CType) : List (SStmt F) → Prop
  | [] => True
  | s :: ss => s.Wt r ∧ WtSs r ss
end

mutual
/-- Statements which do not return. -/
def SStmt.NoRet : SStmt F → Prop
  | .simple (.ret _) => False
  | .simple _ => True
  | .call _ _ _ _ _ => True
  | .for_ _ _ _ body => NoRetSs body
/-- For all statements of a list. -/
def NoRetSs : List (SStmt F) → Prop
  | [] => True
  | s :: ss => s.NoRet ∧ NoRetSs ss
end

/-- A function which is called with arguments of the types `ts`, and returns a value of type `t`. -/
def Callee.Wt (ts : List CType) (t : CType) : Callee F → Prop
  | .here i => (∀ s ∈ ts, TypeOk s) ∧ (∀ g ∈ i.generics, g.2 < 2 ^ 32) ∧ WtSs t i.body ∧ NoRetSs i.body ∧ i.ret.Wt ∧ i.ret.ty = t
  | .flat f g => embedTy f g = some t ∧ embedArgs f g ts

/-- Well-typed programs. -/
def Program.Wt (P : Program F) : Prop := ∀ key ns ts t c, P key ns ts t = some c → c.Wt ts t

/-- Well-typed main functions. -/
structure SFun.Wt (f : SFun F) : Prop where
  params : ∀ q ∈ f.params, TypeOk q.ty
  ret : TypeOk f.ret
  body : WtSs f.ret f.body

/-- The bit decompositions of a program have at most `k` bits. -/
def Program.UnpackWithin (P : Program F) (k : ℕ) : Prop := ∀ key ns ts t n, P key ns ts t = some (.flat .unpack [n]) → n ≤ k

/-- A program without bit decompositions of field elements. -/
def Program.OracleFree (P : Program F) : Prop := ∀ key ns ts t g, P key ns ts t ≠ some (.flat .unpack g)

/-- A bit decomposition at compile time is the only one at run time. -/
def Program.UnpackOnly (O : Oracle p Z) (P : Program (ZMod p)) : Prop :=
  ∀ key ns ts t n, P key ns ts t = some (.flat .unpack [n]) → ∀ x bl, O.unpack n x bl → unpackLoop n x = (bl, 0)

/-- A bit decomposition at compile time is one of those at run time. -/
def Program.UnpackSome (O : Oracle p Z) (P : Program (ZMod p)) : Prop :=
  ∀ key ns ts t n, P key ns ts t = some (.flat .unpack [n]) → ∀ x bl, unpackLoop n x = (bl, 0) → O.unpack n x bl

end Zok.Typed
