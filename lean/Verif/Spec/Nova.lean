import Verif.Model.Nova
import Verif.Spec.Optimizer

/-
What a step circuit accepts, and what it should accept.
-/

namespace Zok.Nova

section
variable {F Z : Type _} [Field F]

/-- The value of a wire, for a state and values of the allocated variables. -/
def Wire.val (z : List F) (auxs : ℕ → F) : Wire → F
  | .state i => z.getD i 0
  | .aux i => auxs i

/-- The value of a combination of wires. -/
def wireVal (z : List F) (auxs : ℕ → F) (l : List (F × Wire)) : F := (l.map fun t => t.1 * t.2.val z auxs).sum

/-- The step circuit (wires of the outputs, constraints) can be satisfied with the state `z` and the next state `z'`: a prover
may choose the allocated variables. -/
def StepAccepts (outs : List Wire) (cs : List (List (F × Wire) × List (F × Wire) × List (F × Wire))) (z z' : List F) : Prop :=
  ∃ auxs : ℕ → F, (∀ c ∈ cs, wireVal z auxs c.1 * wireVal z auxs c.2.1 = wireVal z auxs c.2.2) ∧ outs.map (Wire.val z auxs) = z'

/-- What is claimed of a proof of one step: for some values of the arguments after those of the state, the program is satisfied
with the state as first arguments and the next state as outputs. -/
def IsStep (P : Prog F Z) (z z' : List F) : Prop := ∃ priv, Realises P (z ++ priv) z'

/-- The same of the constraints at top level alone, and without the requirement that `~one` is 1. -/
def IsFreeStep (P : Prog F Z) (z z' : List F) : Prop :=
  ∃ ρ : Assignment F, (P.arguments.take z.length).map (fun a => ρ a.id) = z ∧ P.returns.map ρ = z' ∧
    ∀ c, Stmt.constraint c ∈ P.statements → c.Sat ρ

/-- Outputs mentioned by the constraints are outputs of the program. -/
def OutputsDeclared (P : Prog F Z) : Prop :=
  ∀ c, Stmt.constraint c ∈ P.statements → ∀ v ∈ c.quad.vars ++ c.lin.vars, (v : ℤ) < 0 → v ∈ P.returns

/-- The constraints do not mention `~one`: they are homogeneous. -/
def NoOne (P : Prog F Z) : Prop :=
  ∀ c, Stmt.constraint c ∈ P.statements → Variable.one ∉ c.quad.vars ++ c.lin.vars

/-- `n` steps of a relation. -/
inductive Chain (R : List F → List F → Prop) : ℕ → List F → List F → Prop
  | zero (z) : Chain R 0 z z
  | succ {n z z' z''} (h : R z z') (hs : Chain R n z' z'') : Chain R (n + 1) z z''

end

section
variable {p : ℕ} [Fact p.Prime] {Z : Type _} (sem : SolverSem (ZMod p) Z)

/-- The states a program goes through, step by step, with the private arguments of each step. -/
inductive Runs (P : Prog (ZMod p) Z) : List (ZMod p) → List (List (ZMod p)) → List (ZMod p) → Prop
  | nil (z) : Runs P z [] z
  | cons {z priv z' privs z''} (h : ExecutesTo sem P (z ++ priv) z') (hs : Runs P z' privs z'') : Runs P z (priv :: privs) z''

end

end Zok.Nova
