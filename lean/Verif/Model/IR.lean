import Verif.Model.LinComb

/-
The intermediate representation: `zokrates_ast/src/ir/mod.rs`, `zokrates_ast/src/common/{solvers,error,statements}.rs`.
-/

namespace Zok

/-- `enum RuntimeError`, `zokrates_ast/src/common/error.rs:7-34`; source metadata is an opaque string. -/
inductive RuntimeError where
  | bellmanConstraint | bellmanOneBinding | bellmanInputBinding
  | arkConstraint | arkOneBinding | arkInputBinding
  | bitness | sum | equal | le | branchIsolation | constantLtBitness | constantLtSum | ltSum | ltSymetric
  | or | xor | incompleteDynamicRange | inverse | euclidean | shaXor | division
  | sourceAssertion (m : String) | sourceAssemblyConstraint (m : String)
  | argumentBitness | selectRangeCheck
deriving DecidableEq, Repr

/-- `RuntimeError::is_malicious`, `error.rs:52-64`. -/
def RuntimeError.isMalicious : RuntimeError → Bool
  | .sourceAssemblyConstraint _ | .sourceAssertion _ | .inverse | .selectRangeCheck | .argumentBitness
  | .incompleteDynamicRange => false
  | _ => true

/-- `Parameter { id, private }`, `zokrates_ast/src/common/flat/parameter.rs:12-17`. -/
structure Parameter where
  id : Variable
  priv : Bool
deriving DecidableEq, Repr

/-- `enum Solver`, `zokrates_ast/src/common/solvers.rs:12-28`. `Z` is the type of user-defined solvers
(`ZirFunction`). `Sha256Round` and `SnarkVerifyBls12377` call external crates and are represented by `ext` with
their signature. -/
inductive Solver (Z : Type _) where
  | conditionEq
  | bits (n : Nat)
  | div
  | xor
  | or
  | shaAndXorAndXorAnd
  | shaCh
  | euclideanDiv
  | zir (f : Z)
  | ref (index : Nat) (signature : Nat × Nat)
  | ext (name : String) (signature : Nat × Nat)
deriving DecidableEq, Repr

/-- The user-defined solvers a program can contain: signature and evaluation. The evaluation of a `ZirFunction` on
constant inputs (`zokrates_interpreter/src/lib.rs:183-248`) is a parameter of the interpreter; `ext` gives the
solvers implemented by external crates. -/
structure SolverSem (F Z : Type _) where
  zirSig : Z → Nat × Nat
  zirRun : Z → List F → Except String (List F)
  extRun : String → List F → List F

/-- `Solver::get_signature`, `solvers.rs:52-69`. -/
def Solver.signature {F Z : Type _} (sem : SolverSem F Z) : Solver Z → Nat × Nat
  | .conditionEq => (1, 2)
  | .bits n => (1, n)
  | .div => (2, 1)
  | .xor => (2, 1)
  | .or => (2, 1)
  | .shaAndXorAndXorAnd => (3, 1)
  | .shaCh => (3, 1)
  | .euclideanDiv => (2, 2)
  | .zir f => sem.zirSig f
  | .ref _ s => s
  | .ext _ s => s

/-- `ConstraintStatement { quad, lin, error }`, `ir/mod.rs:36-43`. -/
structure Constraint (F : Type _) where
  quad : QuadComb F
  lin : LinComb F
  error : Option RuntimeError
deriving DecidableEq, Repr

/-- `DirectiveStatement { inputs, outputs, solver }`, `common/statements.rs`. -/
structure Directive (F Z : Type _) where
  inputs : List (QuadComb F)
  outputs : List Variable
  solver : Solver Z
deriving DecidableEq, Repr

/-- `enum Statement`, `ir/mod.rs:121-128`. A log statement keeps the linear combinations it prints; its format string
and types are dropped (printing goes to a log stream and does not affect the witness). -/
inductive Stmt (F Z : Type _) where
  | block (inner : List (Stmt F Z))
  | constraint (c : Constraint F)
  | directive (d : Directive F Z)
  | log (exprs : List (List (LinComb F)))

/-- `ProgIterator`, `ir/mod.rs:212-219`, without the module map. -/
structure Prog (F Z : Type _) where
  arguments : List Parameter
  returnCount : Nat
  statements : List (Stmt F Z)
  solvers : List (Solver Z)

/-- `ProgIterator::returns`, `ir/mod.rs:262-264`. -/
def Prog.returns {F Z : Type _} (p : Prog F Z) : List Variable := (List.range p.returnCount).map Variable.pub

/-- `ProgIterator::public_inputs` as a list in argument order, `ir/mod.rs:270-276`. -/
def Prog.publicInputs {F Z : Type _} (p : Prog F Z) : List Variable :=
  (p.arguments.filter (fun a => !a.priv)).map Parameter.id

/-- `ProgIterator::public_count`, `ir/mod.rs:266-268`. -/
def Prog.publicCount {F Z : Type _} (p : Prog F Z) : Nat :=
  (p.arguments.filter (fun a => !a.priv)).length + p.returnCount

end Zok
