import Verif.Model.Export
import Verif.Model.Interp

/-
The step circuit of the Nova backend: `zokrates_bellperson/src/{nova,lib}.rs`. `none` is a panic.
-/

namespace Zok.Nova

variable {F Z : Type _}

/-- The variables of the step circuit: the elements of the state it is given, and the variables it allocates. `CS::one()` is not
among them: the step circuit never uses it. -/
inductive Wire where
  | state (i : ℕ)
  | aux (i : ℕ)
deriving DecidableEq, Repr

/-- The state of `synthesize`, `nova.rs:203-277`: the map `symbols`, the remaining witness, the allocated variables in order with
the value taken from the witness (`none` is `AssignmentMissing`, which is only raised if the backend asks for the value), and the
constraints. -/
structure NSynth (F : Type _) where
  symbols : SMap Wire
  witness : SMap F
  auxs : List (Variable × Option F)
  constraints : List (List (F × Wire) × List (F × Wire) × List (F × Wire))

/-- `AllocatedNum::alloc` with the closure that removes the value from the witness, followed by the insertion of the symbol. -/
def alloc (s : NSynth F) (v : Variable) : Wire × NSynth F :=
  (.aux s.auxs.length, { s with
    auxs := s.auxs ++ [(v, SMap.get s.witness v)]
    witness := SMap.erase s.witness v
    symbols := SMap.insert s.symbols v (.aux s.auxs.length) })

/-- `symbols.entry(*k).or_insert_with(..)`, `zokrates_bellperson/src/lib.rs:52-67`: an output without a symbol is
`unreachable!()`. -/
def symbol (s : NSynth F) (v : Variable) : Option (Wire × NSynth F) := match SMap.get s.symbols v with
  | some w => some (w, s)
  | none => if v.isOutput then none else some (alloc s v)

/-- `bellperson_combination`, `lib.rs:38-71`; the `LinearCombination` of the external library is its list of terms. -/
def combination : LinComb F → NSynth F → Option (List (F × Wire) × NSynth F)
  | [], s => some ([], s)
  | (k, v) :: l, s => match symbol s k with
    | none => none
    | some (w, s) => match combination l s with
      | none => none
      | some (ts, s) => some ((v, w) :: ts, s)

/-- One statement of `synthesize_input_to_output`, `lib.rs:140-151`; anything but a constraint is ignored. -/
def synthStmt (s : NSynth F) : Stmt F Z → Option (NSynth F)
  | .constraint c => match combination c.quad.left s with
    | none => none
    | some (a, s) => match combination c.quad.right s with
      | none => none
      | some (b, s) => match combination c.lin s with
        | none => none
        | some (l, s) => some { s with constraints := s.constraints ++ [(a, b, l)] }
  | _ => some s

/-- `synthesize_input_to_output`, `lib.rs:133-155`. -/
def synthStmts (s : NSynth F) : List (Stmt F Z) → Option (NSynth F)
  | [] => some s
  | st :: ss => match synthStmt s st with
    | none => none
    | some s => synthStmts s ss

/-- `for (p, allocated_num) in arguments.iter().zip(input)`, `nova.rs:247-249`: the state of `n` elements becomes the first `n`
arguments, whatever their visibility. -/
def bindState : List Parameter → ℕ → ℕ → SMap Wire → SMap Wire
  | a :: args, i, n + 1, m => bindState args (i + 1) n (SMap.insert m a.id (.state i))
  | _, _, _, m => m

/-- The allocation of the outputs, `nova.rs:253-271`. -/
def allocOutputs (s : NSynth F) : List Variable → List Wire × NSynth F
  | [] => ([], s)
  | v :: vs =>
    let r := alloc s v
    let r' := allocOutputs r.2 vs
    (r.1 :: r'.1, r'.2)

/-- `NovaComputation::try_from`, `nova.rs:42-57`: the public arguments are counted, not looked at. -/
def accepts (p : Prog F Z) : Bool := decide (p.publicCount - p.returnCount = p.returnCount)

/-- `StepCircuit::synthesize`, `nova.rs:203-277`, for a state of `n` elements, from the generated witness (empty for the public
parameters): the wires of the outputs and the circuit. Unlike the circuit of the other backends (`lib.rs:84`), the map does not
start with `~one`. -/
def synthesize (p : Prog F Z) (n : ℕ) (w : SMap F) : Option (List Wire × NSynth F) :=
  if accepts p then
    let s : NSynth F := ⟨bindState p.arguments 0 n [], w, [], []⟩
    let r := allocOutputs s p.returns
    match synthStmts r.2 p.statements with
    | none => none
    | some s => some (r.1, s)
  else none

section
variable {p : ℕ} [Fact p.Prime] (sem : SolverSem (ZMod p) Z)

/-- `synthesize` with its generation of the witness, `nova.rs:221-244`. `state = none` is the generation of public parameters:
the values of the state are unknown; with a state of no elements the witness is generated all the same, from the private
arguments known (`step_private`, none for the public parameters). -/
def synthesizeStep (P : Prog (ZMod p) Z) (n : ℕ) (state : Option (List (ZMod p))) (priv : Option (List (ZMod p))) :
    Option (List Wire × NSynth (ZMod p)) :=
  let z? := if n = 0 then some [] else state
  match z? with
  | none => synthesize P n []
  | some z => match execute sem false (z ++ priv.getD []) P.statements P.arguments P.solvers with
    | .error _ => none
    | .ok w => synthesize P n w

/-- `StepCircuit::output`, `nova.rs:279-302`. -/
def output (P : Prog (ZMod p) Z) (z priv : List (ZMod p)) : Option (List (ZMod p)) :=
  match execute sem false (z ++ priv) P.statements P.arguments P.solvers with
  | .error _ => none
  | .ok w => Export.returnValues w

/-- `RecursiveSNARKWithStepCount`, `nova.rs:118-122`: of the external proof only the current state is modelled, which `prove_step`
replaces by the `output` of the circuit on it. -/
structure Recursive (F : Type _) where
  state : List F
  steps : ℕ
deriving DecidableEq

/-- `prove`, `nova.rs:159-191`. The check of `try_from` comes first (`Error::User`, here `none` as well). -/
def prove (P : Prog (ZMod p) Z) (z0 : List (ZMod p)) (proof : Option (Recursive (ZMod p))) (steps : List (List (ZMod p))) :
    Option (Option (Recursive (ZMod p))) :=
  if accepts P then
    steps.foldlM (fun proof priv =>
      let n := (proof.map Recursive.steps).getD 0 + 1
      match output sem P ((proof.map Recursive.state).getD z0) priv with
      | none => none
      | some z => some (some ⟨z, n⟩)) proof
  else none

end

end Zok.Nova
