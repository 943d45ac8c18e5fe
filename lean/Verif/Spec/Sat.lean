import Verif.Model.IR
import Verif.Spec.Value

/-
Specification: satisfaction of a constraint system, the variables a statement mentions, single assignment.
-/

namespace Zok
variable {F : Type _} [Field F] {Z : Type _}

/-- A constraint holds when its quadratic side equals its linear side. -/
def Constraint.Sat (ρ : Assignment F) (c : Constraint F) : Prop := c.quad.val ρ = c.lin.val ρ

/-- A statement constrains the assignment only through its constraints (recursively in blocks). -/
inductive Stmt.Sat (ρ : Assignment F) : Stmt F Z → Prop
  | block {ss} (h : ∀ s ∈ ss, Stmt.Sat ρ s) : Stmt.Sat ρ (.block ss)
  | constraint {c} (h : c.Sat ρ) : Stmt.Sat ρ (.constraint c)
  | directive (d) : Stmt.Sat ρ (.directive d)
  | log (l) : Stmt.Sat ρ (.log l)

/-- All constraints of a list of statements hold. -/
def SatAll (ρ : Assignment F) (ss : List (Stmt F Z)) : Prop := ∀ s ∈ ss, s.Sat ρ

/-- Variables of a linear combination. -/
def LinComb.vars (l : LinComb F) : List Variable := l.map Prod.fst

/-- Variables of a quadratic combination. -/
def QuadComb.vars (q : QuadComb F) : List Variable := q.left.vars ++ q.right.vars

mutual
/-- All variables mentioned by a statement. -/
def Stmt.vars : Stmt F Z → List Variable
  | .block ss => Stmt.varsL ss
  | .constraint c => c.quad.vars ++ c.lin.vars
  | .directive d => d.inputs.flatMap QuadComb.vars ++ d.outputs
  | .log l => l.flatMap fun e => e.flatMap LinComb.vars
/-- All variables mentioned by a list of statements. -/
def Stmt.varsL : List (Stmt F Z) → List Variable
  | [] => []
  | s :: ss => s.vars ++ Stmt.varsL ss
end

/-- No directive assigns a variable that was mentioned before (`seen` are the variables mentioned so far). -/
def DirectivesFresh (seen : List Variable) : List (Stmt F Z) → Prop
  | [] => True
  | s :: ss =>
    (match s with
      | .directive d => ∀ o ∈ d.outputs, o ∉ seen
      | _ => True) ∧ DirectivesFresh (seen ++ s.vars) ss

/-- The variables bound before the first statement runs. -/
def initialVars (args : List Parameter) : List Variable := Variable.one :: args.map Parameter.id

/-- The arguments of a program have pairwise distinct ids, none of which is `~one`. -/
def ArgsDistinct (args : List Parameter) : Prop := (initialVars args).Nodup

/-- The assignment a witness denotes (unbound variables are irrelevant; they get 0). -/
def assignmentOf (w : SMap F) : Assignment F := fun v => (SMap.get w v).getD 0

end Zok

namespace Zok
variable {F : Type _} [Field F] [DecidableEq F] {Z : Type _}

/-- Every statement only reads variables bound earlier; a constraint may bind one new variable if its linear side is
exactly that variable; blocks do not occur. -/
def WellScoped (seen : List Variable) : List (Stmt F Z) → Prop
  | [] => True
  | s :: ss =>
    (match s with
      | .block _ => False
      | .constraint c => (∀ x ∈ c.quad.vars, x ∈ seen) ∧ ((∃ x, c.lin = [(x, 1)]) ∨ ∀ x ∈ c.lin.vars, x ∈ seen)
      | .directive d => ∀ x ∈ d.inputs.flatMap QuadComb.vars, x ∈ seen
      | .log l => ∀ x ∈ l.flatMap (fun e => e.flatMap LinComb.vars), x ∈ seen) ∧
    WellScoped (seen ++ s.vars) ss

end Zok
