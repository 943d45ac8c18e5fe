import Verif.Model.Compile
import Verif.Model.Propagator
import Verif.Model.PanicExtractor
import Verif.Model.DeadCode
import Verif.Model.UintOpt
import Verif.Model.AssemblyTransformer

/-
The passes over ZIR in the order of `zokrates_analysis/src/lib.rs:196-216`, and the back end behind them,
`zokrates_core/src/compile.rs:171-200`.
-/

namespace Zok
variable {p : ℕ} {Z : Type}

/-- What each pass does to the functions of hints, which are opaque in this model. -/
structure HintPasses (p : ℕ) (Z : Type) where
  extract : Z → List (ZStmt (ZMod p) Z) → Z
  dce : Z → Dce.Used → Z × Dce.Used
  uint : Z → Uo.Ids p → Option (Z × Uo.Ids p)

variable [Fact p.Prime]

/-- `PanicExtractor::extract`, `DeadCodeEliminator::eliminate`, `UintOptimizer::optimize`, `AssemblyTransformer::transform`,
`zokrates_analysis/src/lib.rs:201-216`. `none`: an error, or the code panics. -/
def analyseZir (H : HintPasses p Z) (f : ZFun (ZMod p) Z) : Option (ZFun (ZMod p) Z) :=
  match Uo.uintOptimize H.uint (eliminateDeadCode H.dce (extractPanics H.extract f)) with
  | none => none
  | some g => match transformAssembly g with
    | .ok g => some g
    | .error _ => none

/-- The passes after propagation and the back end, `lib.rs:201-216`, `compile.rs:183-200`. -/
def compilePropagated [DecidableEq Z] (H : HintPasses p Z) (sem : SolverSem (ZMod p) Z) (hash : Stmt (ZMod p) Z → ℕ)
    (f : ZFun (ZMod p) Z) : Option (Prog (ZMod p) Z × Bool) :=
  match analyseZir H f with
  | none => none
  | some g => compileZir sem hash g

/-- All passes over ZIR and the back end, `lib.rs:196-216`, `compile.rs:183-200`. -/
def compileFlattened [DecidableEq Z] (HF : Prop'.HintFolder p Z) (err : String → RuntimeError) (H : HintPasses p Z)
    (sem : SolverSem (ZMod p) Z) (hash : Stmt (ZMod p) Z → ℕ) (f : ZFun (ZMod p) Z) : Option (Prog (ZMod p) Z × Bool) :=
  match Prop'.propagate HF err f with
  | .error _ => none
  | .ok f' => compilePropagated H sem hash f'

end Zok
