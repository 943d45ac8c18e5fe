import Verif.Model.Optimizer
import Verif.Spec.Honest

/-
Specification for the optimiser: the flat order in which the redefinition optimiser meets statements, and the
discipline "a variable is only replaced at its first occurrence".
-/

namespace Zok
variable {F : Type _} [Field F] [DecidableEq F] {Z : Type _}

/-- The variables a statement that is not a block reads: for a constraint its quadratic side, for a directive its inputs. -/
def Stmt.reads : Stmt F Z → List Variable
  | .block _ => []
  | .constraint c => c.quad.vars
  | .directive d => d.inputs.flatMap QuadComb.vars
  | .log l => l.flatMap (fun e => e.flatMap LinComb.vars)

/-- The variables that occur in a statement that is not a block, other than as outputs of a directive. -/
def Stmt.uses : Stmt F Z → List Variable
  | .block _ => []
  | .constraint c => c.quad.vars ++ c.lin.vars
  | .directive d => d.inputs.flatMap QuadComb.vars
  | .log l => l.flatMap (fun e => e.flatMap LinComb.vars)

mutual
/-- The leaves of a statement in order, each with the flag "processed aggressively" it gets from
`RedefinitionOptimizer`. -/
def Stmt.flag (inner : Bool) : Stmt F Z → List (Bool × Stmt F Z)
  | .block ss => Stmt.flagL (!inner) ss
  | s => [(inner, s)]
/-- The leaves of a stream in order with their flags. -/
def Stmt.flagL (inner : Bool) : List (Stmt F Z) → List (Bool × Stmt F Z)
  | [] => []
  | s :: ss => Stmt.flag inner s ++ Stmt.flagL inner ss
end

variable {p : ℕ} [Fact p.Prime]

/-- Whenever the redefinition optimiser, started in state `st` on a stream of leaves, starts replacing a variable, that
variable has not been replaced before, has not occurred before (`ment` are the variables that have), and is not read by the
statement that triggers the replacement. -/
def ReplacesAtFirstUse (sem : SolverSem (ZMod p) Z) (ment : List Variable) (st : RedefState (ZMod p)) :
    List (Bool × Stmt (ZMod p) Z) → Prop
  | [] => True
  | (b, s) :: rest => ∀ st' out, redefLeaf sem b st s = some (st', out) →
      (∀ x, SMap.get st'.subst x ≠ SMap.get st.subst x →
        SMap.get st.subst x = none ∧ x ∉ ment ∧ x ∉ s.reads) ∧
      ReplacesAtFirstUse sem (ment ++ s.uses) st' rest

/-- The variables whose values must survive optimisation: `~one`, the arguments and the outputs. -/
def protectedVars (args : List Parameter) (returnCount : ℕ) : List Variable :=
  Variable.one :: args.map Parameter.id ++ (List.range returnCount).map Variable.pub

/-- A program (without blocks) in single-assignment form: statements only read bound variables; directives assign fresh
variables, never an argument or an output; every output is assigned; argument ids are distinct. -/
structure SingleAssignment {F : Type _} [Field F] [DecidableEq F] (P : Prog F Z) : Prop where
  args : ArgsDistinct P.arguments
  wellScoped : WellScoped (initialVars P.arguments) P.statements
  fresh : DirectivesFresh (protectedVars P.arguments P.returnCount) P.statements
  outputs : ∀ r ∈ P.returns, r ∈ initialVars P.arguments ++ Stmt.varsL P.statements

/-- A program can be satisfied with these argument and output values. -/
def Realises {F : Type _} [Field F] (P : Prog F Z) (ins outs : List F) : Prop :=
  ∃ ρ : Assignment F, ρ Variable.one = 1 ∧ P.arguments.map (fun a => ρ a.id) = ins ∧ P.returns.map ρ = outs ∧
    SatAll ρ P.statements

/-- A program can be satisfied with these argument and output values by an honest prover. -/
def HonestlyRealises (sem : SolverSem (ZMod p) Z) (P : Prog (ZMod p) Z) (ins outs : List (ZMod p)) : Prop :=
  ∃ ρ : Assignment (ZMod p), HonestAssignment sem P.solvers P.arguments ins (Stmt.cleanL P.statements) ρ ∧
    P.returns.map ρ = outs ∧ SatAll ρ P.statements

/-- Executing a program on inputs succeeds with these outputs. -/
def ExecutesTo (sem : SolverSem (ZMod p) Z) (P : Prog (ZMod p) Z) (ins outs : List (ZMod p)) : Prop :=
  ∃ w, execute sem false ins P.statements P.arguments P.solvers = .ok w ∧
    P.returns.map (SMap.get w) = outs.map some

/-- Equality of statements as `==` and `Hash` see it: the error attached to a constraint is ignored
(`ir/mod.rs:36-42`, `derivative(Hash = "ignore")`). -/
def Stmt.dropError {F Z : Type _} : Stmt F Z → Stmt F Z
  | .constraint c => .constraint { c with error := none }
  | s => s

/-- The hash does not collide on the statements of a list. -/
def HashSeparates {F Z : Type _} (hash : Stmt F Z → ℕ) (ss : List (Stmt F Z)) : Prop :=
  ∀ s ∈ ss, ∀ t ∈ ss, hash s = hash t → s.dropError = t.dropError

end Zok
