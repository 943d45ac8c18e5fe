import Verif.Model.FlattenerStmt
import Verif.Model.Flat
import Verif.Model.Optimizer

/-
The back end of the compiler: `zokrates_core/src/compile.rs:183-200`.
-/

namespace Zok

/-- `from_flat(from_program_and_config(zir))`, `compile.rs:186-190`, `zokrates_ast/src/ir/from_flat.rs:21-31`. `none`: the
code panics. The second component is the ghost flag `clash` of the flattener. -/
def lowerProgram {p : ℕ} {Z : Type} [Fact p.Prime] (f : ZFun (ZMod p) Z) : Option (Prog (ZMod p) Z × Bool) :=
  match fromProgram f with
  | none => none
  | some (args, ss, clash) => match FlatStmt.toIrL ss with
    | none => none
    | some ts => some (⟨args, f.returnCount, ts, []⟩, clash)

/-- `ProgIterator::clean`, `zokrates_ast/src/ir/clean.rs:11-18`. -/
def Prog.clean {F : Type} {Z : Type} (P : Prog F Z) : Prog F Z := { P with statements := Stmt.cleanL P.statements }

/-- `optimize(from_flat(from_program_and_config(zir))).clean()`, the part of `compile` after the analysis,
`compile.rs:183-200`. `sem` evaluates solvers with constant inputs, `hash` is the hash function of the duplicate
optimiser. -/
def compileZir {p : ℕ} {Z : Type} [Fact p.Prime] [DecidableEq Z] (sem : SolverSem (ZMod p) Z)
    (hash : Stmt (ZMod p) Z → ℕ) (f : ZFun (ZMod p) Z) : Option (Prog (ZMod p) Z × Bool) :=
  match lowerProgram f with
  | none => none
  | some (P, clash) => match optimize sem hash P with
    | none => none
    | some P' => some (P'.clean, clash)

end Zok
