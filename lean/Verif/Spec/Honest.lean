import Verif.Model.Interp
import Verif.Spec.Sat

/-
Specification: honest assignments, i.e. the values a prover who runs the solvers computes.
-/

namespace Zok
variable {p : ℕ} [Fact p.Prime] {Z : Type _} (sem : SolverSem (ZMod p) Z)

/-- Everything an honest prover computes: `~one` is 1, arguments are the inputs, and every directive output is what its
solver returns on the values of its inputs. -/
structure HonestAssignment (solvers : List (Solver Z)) (args : List Parameter) (inputs : List (ZMod p))
    (ss : List (Stmt (ZMod p) Z)) (ρ : Assignment (ZMod p)) : Prop where
  one : ρ Variable.one = 1
  args : args.map (fun a => ρ a.id) = inputs
  directives : ∀ d, .directive d ∈ ss →
    executeSolver sem d.solver (d.inputs.map (QuadComb.val ρ)) solvers = .ok (d.outputs.map ρ)

/-- Every directive assigns pairwise distinct variables, as many as its solver returns values. -/
def DirectivesMatch (solvers : List (Solver Z)) (ss : List (Stmt (ZMod p) Z)) : Prop :=
  ∀ d, .directive d ∈ ss → d.outputs.Nodup ∧
    ∀ xs res, executeSolver sem d.solver xs solvers = .ok res → res.length = d.outputs.length

end Zok
