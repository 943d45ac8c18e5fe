import Verif.Model.Reducer
import Verif.Model.Pipeline
import Verif.Model.FlattenTypes
import Verif.Model.VariableWrite
import Verif.Model.ConditionRedefiner
import Verif.Model.BooleanArray
import Verif.Model.Checkers
import Verif.Model.TypedPropagator

/-
The passes over typed programs behind constant propagation, `zokrates_analysis/src/lib.rs:165-189`, the flattening of types and the passes over ZIR,
`zokrates_analysis/src/lib.rs:191-216`, and the back end behind them.
-/

namespace Zok.Typed
variable {p : ℕ} {Z : Type} [Fact p.Prime]

/-- `Flattener::flatten`, the passes over ZIR and the back end, `zokrates_analysis/src/lib.rs:191-216`, `zokrates_core/src/compile.rs:183-200`. -/
def compileTyped [DecidableEq Z] (nm : SId → ZId) (HF : Prop'.HintFolder p Z) (err : String → RuntimeError) (H : HintPasses p Z)
    (sem : SolverSem (ZMod p) Z) (hash : Stmt (ZMod p) Z → ℕ) (f : TFun (ZMod p)) : Option (Prog (ZMod p) Z × Bool) :=
  match flatFun nm f with
  | none => none
  | some g => compileFlattened HF err H sem hash g

/-- The passes over typed programs behind constant propagation, `zokrates_analysis/src/lib.rs:165-189`: `BooleanArrayComparator`, `VariableWriteRemover`,
`ConstantArgumentChecker`, `OutOfBoundsChecker`, `ConditionRedefiner`. `none` is an error or a panic. -/
def analyseTyped (ord : List (TStmt (ZMod p)) → List (TStmt (ZMod p))) (cid : ℕ → TId) (f : TFun (ZMod p)) : Option (TFun (ZMod p)) :=
  match removeWrites ord (packComparisons f) with
  | none => none
  | some g => match check .args g with
    | none => none
    | some g => match check .bounds g with
      | none => none
      | some g => some (redefine cid g)

/-- Everything behind the constant propagation of typed programs, `zokrates_analysis/src/lib.rs:165-216`, `zokrates_core/src/compile.rs:183-200`. -/
def compileAnalysed [DecidableEq Z] (ord : List (TStmt (ZMod p)) → List (TStmt (ZMod p))) (cid : ℕ → TId) (nm : SId → ZId) (HF : Prop'.HintFolder p Z)
    (err : String → RuntimeError) (H : HintPasses p Z) (sem : SolverSem (ZMod p) Z) (hash : Stmt (ZMod p) Z → ℕ) (f : TFun (ZMod p)) :
    Option (Prog (ZMod p) Z × Bool) :=
  match analyseTyped ord cid f with
  | none => none
  | some g => compileTyped nm HF err H sem hash g

/-- Constant propagation of the typed program, and everything behind it, `zokrates_analysis/src/lib.rs:160-216`, `zokrates_core/src/compile.rs:183-200`. -/
def compilePropagated [DecidableEq Z] (ord : List (TStmt (ZMod p)) → List (TStmt (ZMod p))) (cid : ℕ → TId) (nm : SId → ZId) (HF : Prop'.HintFolder p Z)
    (err : String → RuntimeError) (H : HintPasses p Z) (sem : SolverSem (ZMod p) Z) (hash : Stmt (ZMod p) Z → ℕ) (f : TFun (ZMod p)) :
    Option (Prog (ZMod p) Z × Bool) :=
  match propagateT f with
  | .error _ => none
  | .ok g => compileAnalysed ord cid nm HF err H sem hash g

/-- The reducer, and everything behind it, `zokrates_analysis/src/lib.rs:133-216`, `zokrates_core/src/compile.rs:183-200`, without `StructConcretizer` (types are concrete
here, see `Model/Reducer.lean`) and `ExpressionValidator` (which changes nothing in programs it accepts). -/
def compileReduced [DecidableEq Z] (ord : List (TStmt (ZMod p)) → List (TStmt (ZMod p))) (cid : ℕ → TId) (nm : SId → ZId) (HF : Prop'.HintFolder p Z)
    (err : String → RuntimeError) (H : HintPasses p Z) (sem : SolverSem (ZMod p) Z) (hash : Stmt (ZMod p) Z → ℕ) (P : Program (ZMod p)) (k : ℕ) (f : SFun (ZMod p)) :
    Option (Prog (ZMod p) Z × Bool) :=
  match reduce P k f with
  | .error _ => none
  | .ok g => compilePropagated ord cid nm HF err H sem hash g

end Zok.Typed
