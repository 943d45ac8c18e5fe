import Verif.Model.IR

/-
What the theorems about files are stated with. Nothing here refers to the (de)serialisation code.
-/

namespace Zok.Ser
variable {F Z : Type _}

mutual
/-- The constraints, directives and logs of a statement, in order, looking into assembly blocks. -/
def atoms : Stmt F Z → List (Stmt F Z)
  | .block ss => atomsL ss
  | .constraint c => [.constraint c]
  | .directive d => [.directive d]
  | .log l => [.log l]
/-- The same for a list of statements. -/
def atomsL : List (Stmt F Z) → List (Stmt F Z)
  | [] => []
  | s :: ss => atoms s ++ atomsL ss
end

/-- The variable occurs in the constraint. -/
def InConstraint (v : Variable) : Stmt F Z → Prop
  | .constraint c => (∃ k, (v, k) ∈ c.quad.left) ∨ (∃ k, (v, k) ∈ c.quad.right) ∨ ∃ k, (v, k) ∈ c.lin
  | _ => False

/-- The variable is printed by the log statement. -/
def InLog (v : Variable) : Stmt F Z → Prop
  | .log es => ∃ e ∈ es, ∃ l ∈ e, ∃ k, (v, k) ∈ l
  | _ => False

/-- A private argument of the program. -/
def PrivateArg (p : Prog F Z) (v : Variable) : Prop := ∃ a ∈ p.arguments, a.priv = true ∧ a.id = v

/-- The variables the detector complains about: private arguments that no constraint and no log mentions, and outputs of a
directive that no constraint and no log *after the directive* mentions. -/
def Unused (p : Prog F Z) (v : Variable) : Prop :=
  (PrivateArg p v ∧ ∀ s ∈ atomsL p.statements, ¬ InConstraint v s ∧ ¬ InLog v s) ∨
  ∃ pre d post, atomsL p.statements = pre ++ Stmt.directive d :: post ∧ v ∈ d.outputs ∧
    ∀ s ∈ post, ¬ InConstraint v s ∧ ¬ InLog v s

/-- The user-defined solver `s` has been replaced by a reference to an equal entry of the table, with the same signature;
other solvers are unchanged. -/
def SameSolver (sem : SolverSem F Z) (table : List (Solver Z)) (s s' : Solver Z) : Prop := match s with
  | .zir f => ∃ i, s' = .ref i (sem.zirSig f) ∧ table[i]? = some (.zir f)
  | _ => s' = s

/-- Statements that only differ in that user-defined solvers have been moved to the table. -/
inductive SameStmt (sem : SolverSem F Z) (table : List (Solver Z)) : Stmt F Z → Stmt F Z → Prop where
  | block {ss ss' : List (Stmt F Z)} : List.Forall₂ (SameStmt sem table) ss ss' → SameStmt sem table (.block ss) (.block ss')
  | constraint (c : Constraint F) : SameStmt sem table (.constraint c) (.constraint c)
  | directive {i : List (QuadComb F)} {o : List Variable} {s s' : Solver Z} : SameSolver sem table s s' →
      SameStmt sem table (.directive ⟨i, o, s⟩) (.directive ⟨i, o, s'⟩)
  | log (l : List (List (LinComb F))) : SameStmt sem table (.log l) (.log l)

/-- The user-defined solvers of a list of statements. -/
def userSolvers (ss : List (Stmt F Z)) : Set Z := {f | ∃ i o, Stmt.directive ⟨i, o, .zir f⟩ ∈ atomsL ss}

/-- No directive of the program is a reference to the solver table: the case of all programs the compiler produces. -/
def NoReferences (ss : List (Stmt F Z)) : Prop := ∀ i o k sig, Stmt.directive ⟨i, o, Solver.ref k sig⟩ ∉ atomsL ss

end Zok.Ser
