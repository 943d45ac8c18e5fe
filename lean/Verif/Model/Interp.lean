import Verif.Model.IR
import Verif.Model.Field

/-
The interpreter: `zokrates_interpreter/src/lib.rs`.
-/

namespace Zok
variable {p : ℕ} {Z : Type _}

/-- `Witness(BTreeMap<Variable, T>)`, `zokrates_ast/src/ir/witness.rs:9`. -/
abbrev Witness (F : Type _) := SMap F

/-- `enum Error`, `zokrates_interpreter/src/lib.rs:359-364`, plus `panic` for `unwrap`/`assert`/`unreachable`. The
`LogStream` error cannot occur: `execute` (lib.rs:30-38) logs to a sink. -/
inductive ExecError where
  | unsatisfied (error : Option RuntimeError)
  | solver (msg : String)
  | wrongInputCount (expected received : Nat)
  | panic
deriving DecidableEq, Repr

/-- `evaluate_lin`, `lib.rs:366-372`; `none` is `EvaluationError`. -/
def evalLin {F : Type _} [Field F] (w : Witness F) (l : LinComb F) : Option F :=
  l.foldlM (fun acc t => (SMap.get w t.1).map (fun v => acc + v * t.2)) 0

/-- `evaluate_quad`, `lib.rs:374-378`. -/
def evalQuad {F : Type _} [Field F] (w : Witness F) (q : QuadComb F) : Option F :=
  match evalLin w q.left with
  | none => none
  | some l => match evalLin w q.right with
    | none => none
    | some r => some (l * r)

/-- `LinComb::is_assignee`, `zokrates_ast/src/ir/expression.rs:218-222`. -/
def isAssignee {F : Type _} [Field F] [DecidableEq F] (l : LinComb F) (w : Witness F) : Bool :=
  match l with
  | [(v, k)] => decide (k = 1) && !(SMap.contains w v)
  | _ => false

/-- The scan of `try_solve_with_out_of_range_bits`, `lib.rs:156-163`: greedy digits of `state`, `n` of them. -/
def greedyBits {F : Type _} [Field F] : ℕ → ℕ → List F
  | 0, _ => []
  | n + 1, s => if 2 ^ n ≤ s then 1 :: greedyBits n (s - 2 ^ n) else 0 :: greedyBits n s

/-- `try_solve_with_out_of_range_bits`, `lib.rs:140-165` (for `bit_width ≥ get_required_bits`). -/
def outOfRangeBits [Fact p.Prime] (bitWidth : ℕ) (input : ZMod p) : List (ZMod p) :=
  let candidate := input.val + (Fld.maxValue p).val + 1
  let v := if candidate < 2 ^ Fld.requiredBits p then candidate else input.val
  List.replicate (bitWidth - Fld.requiredBits p) 0 ++ greedyBits (Fld.requiredBits p) v

/-- The `match` of `execute_solver`, `lib.rs:182-347`; `none` inside is a panic (index out of bounds, failed
`unwrap`, unexpected solver). -/
def solverBody [Fact p.Prime] (sem : SolverSem (ZMod p) Z) (s : Solver Z) (inputs : List (ZMod p)) :
    Except ExecError (List (ZMod p)) :=
  match s, inputs with
  | .zir f, xs => match sem.zirRun f xs with
    | .ok r => .ok r
    | .error e => .error (.solver e)
  | .conditionEq, [x] => .ok (if x = 0 then [0, 1] else [1, (Fld.checkedDiv 1 x).getD 1])
  | .bits n, [x] =>
    let bs := Fld.toBitsBe x
    let bs := bs.drop (bs.length - n)
    .ok ((List.replicate (n - bs.length) false ++ bs).map boolF)
  | .xor, [x, y] => .ok [x + y - 2 * x * y]
  | .or, [x, y] => .ok [x + y - x * y]
  | .shaAndXorAndXorAnd, [a, b, c] => .ok [b * c - (2 * b * c - b - c) * a]
  | .shaCh, [a, b, c] => .ok [a * (b - c) + c]
  | .div, [x, y] => .ok [(Fld.checkedDiv x y).getD 1]
  | .euclideanDiv, [x, y] =>
    let n := x.val
    let d := y.val
    let q := if d = 0 then 0 else n / d
    let r := n - d * q
    match Fld.tryFromBiguint p q, Fld.tryFromBiguint p r with
    | some q, some r => .ok [q, r]
    | _, _ => .error .panic
  | .ext name _, xs => .ok (sem.extRun name xs)
  | _, _ => .error .panic

/-- `execute_solver`, `lib.rs:167-352`: resolve a reference, check the arity of inputs and outputs (`assert_eq!`
panics). -/
def executeSolver [Fact p.Prime] (sem : SolverSem (ZMod p) Z) (s : Solver Z) (inputs : List (ZMod p))
    (solvers : List (Solver Z)) : Except ExecError (List (ZMod p)) :=
  let s? := match s with
    | .ref i _ => solvers[i]?
    | s => some s
  match s? with
  | none => .error (.solver "Could not get solver")
  | some s =>
    let sig := s.signature sem
    if inputs.length ≠ sig.1 then .error .panic
    else match solverBody sem s inputs with
      | .error e => .error e
      | .ok res => if res.length ≠ sig.2 then .error .panic else .ok res

/-- The loop `for (i, o) in d.outputs.iter().enumerate() { witness.insert(*o, res[i]) }`, `lib.rs:104-106`;
`none` is an out-of-bounds index. -/
def insertOutputs {F : Type _} (w : Witness F) : List Variable → List F → Option (Witness F)
  | [], _ => some w
  | _ :: _, [] => none
  | o :: os, r :: rs => insertOutputs (SMap.insert w o r) os rs

/-- The choice of the solver result of a directive, `lib.rs:93-102`. `oor` is `should_try_out_of_range`. -/
def runDirective [Fact p.Prime] (sem : SolverSem (ZMod p) Z) (oor : Bool) (solvers : List (Solver Z))
    (s : Solver Z) (inputs : List (ZMod p)) : Except ExecError (List (ZMod p)) :=
  match s, oor, inputs.getLast? with
  | .bits n, true, some x =>
    if n ≥ Fld.requiredBits p then .ok (outOfRangeBits n x) else executeSolver sem s inputs solvers
  | _, _, _ => executeSolver sem s inputs solvers

/-- One iteration of the statement loop, `lib.rs:68-135`. `oor` is `should_try_out_of_range`. -/
def execStmt [Fact p.Prime] (sem : SolverSem (ZMod p) Z) (oor : Bool) (solvers : List (Solver Z))
    (w : Witness (ZMod p)) (s : Stmt (ZMod p) Z) : Except ExecError (Witness (ZMod p)) :=
  match s with
  | .block _ => .error .panic
  | .constraint c =>
    if isAssignee c.lin w then
      match evalQuad w c.quad, c.lin with
      | some v, (x, _) :: _ => .ok (SMap.insert w x v)
      | _, _ => .error .panic
    else
      match evalQuad w c.quad, evalLin w c.lin with
      | some l, some r => if l ≠ r then .error (.unsatisfied c.error) else .ok w
      | _, _ => .error .panic
  | .directive d =>
    match d.inputs.mapM (evalQuad w) with
    | none => .error .panic
    | some inputs =>
      match runDirective sem oor solvers d.solver inputs with
      | .error e => .error e
      | .ok res => match insertOutputs w d.outputs res with
        | none => .error .panic
        | some w => .ok w
  | .log exprs =>
    match exprs.mapM (fun e => e.mapM (evalLin w)) with
    | none => .error .panic
    | some _ => .ok w

/-- The statement loop. -/
def execStmts [Fact p.Prime] (sem : SolverSem (ZMod p) Z) (oor : Bool) (solvers : List (Solver Z))
    (w : Witness (ZMod p)) : List (Stmt (ZMod p) Z) → Except ExecError (Witness (ZMod p))
  | [] => .ok w
  | s :: ss => match execStmt sem oor solvers w s with
    | .error e => .error e
    | .ok w => execStmts sem oor solvers w ss

/-- The initial witness, `lib.rs:61-66`. -/
def initWitness {F : Type _} [Field F] (args : List Parameter) (inputs : List F) : Witness F :=
  (args.zip inputs).foldl (fun w ai => SMap.insert w ai.1.id ai.2) (SMap.insert [] Variable.one 1)

/-- `Interpreter::execute`, `lib.rs:30-138`. -/
def execute [Fact p.Prime] (sem : SolverSem (ZMod p) Z) (oor : Bool) (inputs : List (ZMod p))
    (statements : List (Stmt (ZMod p) Z)) (args : List Parameter) (solvers : List (Solver Z)) :
    Except ExecError (Witness (ZMod p)) :=
  if args.length ≠ inputs.length then .error (.wrongInputCount args.length inputs.length)
  else execStmts sem oor solvers (initWitness args inputs) statements

end Zok
