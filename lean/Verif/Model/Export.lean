import Verif.Model.Serialize
import Verif.Model.Display
import Mathlib.Data.Nat.Digits.Defs

/-
Exports of a program and its witness: circom (`zokrates_circom/src/{r1cs,witness}.rs`), SMT-LIB
(`zokrates_ast/src/ir/smtlib2.rs`), and the circuits handed to the proving backends (`zokrates_ark/src/lib.rs`,
`zokrates_bellman/src/lib.rs`). `none` is a panic.
-/

namespace Zok.Export
open Ser (Bytes writeLE)

variable {F Z : Type _}

/-! ### R1CS -/

/-- `HashMap<Variable, usize>`: entries in the order of their insertion. -/
abbrev WireMap := List (Variable × ℕ)

/-- `provide_variable_idx`, `r1cs.rs:40-43`: `or_insert` of the current length. -/
def provide (m : WireMap) (v : Variable) : WireMap := match m.lookup v with
  | some _ => m
  | none => m ++ [(v, m.length)]

/-- `BTreeSet<Variable>`. -/
abbrev VarSet := SMap Unit

/-- The constraints of the program; an assembly block is `unreachable!()`, `r1cs.rs:70-75` and `95-100`. -/
def constraintsOf : List (Stmt F Z) → Option (List (Constraint F))
  | [] => some []
  | .block _ :: _ => none
  | .constraint c :: ss => match constraintsOf ss with
    | none => none
    | some cs => some (c :: cs)
  | .directive _ :: ss => constraintsOf ss
  | .log _ :: ss => constraintsOf ss

/-- `ordered_variables_set.insert` for the variables of a combination. -/
def collectLin (s : VarSet) (l : LinComb F) : VarSet := l.foldl (fun s t => SMap.insert s t.1 ()) s

/-- The loop `r1cs.rs:69-85`. -/
def collect (cs : List (Constraint F)) : VarSet :=
  cs.foldl (fun s c => collectLin (collectLin (collectLin s c.quad.left) c.quad.right) c.lin) []

/-- One side of a row, `r1cs.rs:102-117`: `variables.get(&k).unwrap()`. -/
def sparse (m : WireMap) : LinComb F → Option (List (ℕ × F))
  | [] => some []
  | (k, v) :: l => match m.lookup k with
    | none => none
    | some i => match sparse m l with
      | none => none
      | some r => some ((i, v) :: r)

/-- `Constraint<T>`, `r1cs.rs:20`. -/
abbrev Row (F : Type _) := List (ℕ × F) × List (ℕ × F) × List (ℕ × F)

/-- The rows, `r1cs.rs:94-119`. -/
def rows (m : WireMap) : List (Constraint F) → Option (List (Row F))
  | [] => some []
  | c :: cs => match sparse m c.quad.left, sparse m c.quad.right, sparse m c.lin, rows m cs with
    | some a, some b, some l, some rs => some ((a, b, l) :: rs)
    | _, _, _, _ => none

/-- The list by index, `r1cs.rs:122-126`. The assertion that no slot is filled twice is not modelled: indices are distinct
(`Wires` in the proofs). -/
def variablesList (m : WireMap) : List Variable :=
  (List.range m.length).map fun i => ((m.find? fun e => e.2 = i).map Prod.fst).getD (Variable.new 0)

/-- The map of the first loop of `r1cs_program`, `r1cs.rs:53-63`. -/
def publicWires (p : Prog F Z) : WireMap :=
  let m := provide [] Variable.one
  let m := (List.range p.returnCount).foldl (fun m i => provide m (Variable.pub i)) m
  (p.arguments.filter fun a => !a.priv).foldl (fun m a => provide m a.id) m

/-- `r1cs_program`, `r1cs.rs:52-128`. -/
def r1csProgram (p : Prog F Z) : Option (List Variable × ℕ × List (Row F)) :=
  let m := publicWires p
  let offset := m.length
  match constraintsOf p.statements with
  | none => none
  | some cs =>
    let m := (SMap.keys (collect cs)).foldl provide m
    match rows m cs with
    | none => none
    | some rs => some (variablesList m, offset, rs)

/-- `BigUint::to_bytes_le` (external): the digits, `[0]` for zero. -/
def toBytesLe (x : ℕ) : Bytes := if x = 0 then [0] else Nat.digits 256 x

/-- `vec![0u8; n]` overwritten by the loop over `zip`, `r1cs.rs:205-208` and `witness.rs:69-72`: extra bytes are dropped. -/
def padBytes (n : ℕ) (b : Bytes) : Bytes := b.take n ++ List.replicate (n - b.length) 0

section
variable {p : ℕ}

/-- `T::max_value().to_biguint().add(1)`: the modulus. -/
def modulusBytes (p : ℕ) : Bytes := toBytesLe ((Fld.maxValue p).val + 1)

/-- `write_lincomb`, `r1cs.rs:201-211`: 32 bytes per coefficient, whatever the field. -/
def writeLincomb (l : List (ℕ × ZMod p)) : Bytes :=
  writeLE 4 l.length ++ l.flatMap fun t => writeLE 4 t.1 ++ padBytes 32 (toBytesLe t.2.val)

/-- `write_constraints`, `r1cs.rs:189-199`. -/
def writeRows (rs : List (Row (ZMod p))) : Bytes :=
  rs.flatMap fun r => writeLincomb r.1 ++ writeLincomb r.2.1 ++ writeLincomb r.2.2

/-- `write_r1cs`, `r1cs.rs:130-187`, with `write_header` (`r1cs.rs:22-33`) and `write_table` (`r1cs.rs:214-219`) inlined. -/
def writeR1cs (prog : Prog (ZMod p) Z) : Option Bytes := match r1csProgram prog with
  | none => none
  | some (vars, _, rs) =>
    let fs := (modulusBytes p).length
    let size := (rs.map fun r => 3 * 4 + (r.1.length + r.2.1.length + r.2.2.length) * (fs + 4)).sum
    some ([0x72, 0x31, 0x63, 0x73] ++ writeLE 4 1 ++ writeLE 4 3 ++
      writeLE 4 2 ++ writeLE 8 size ++ writeRows rs ++
      writeLE 4 1 ++ writeLE 8 (32 + 32) ++
      (writeLE 4 fs ++ modulusBytes p ++ writeLE 4 vars.length ++ writeLE 4 prog.returnCount ++
        writeLE 4 (prog.arguments.filter fun a => !a.priv).length ++
        writeLE 4 (prog.arguments.filter fun a => a.priv).length ++ writeLE 8 vars.length ++ writeLE 4 rs.length) ++
      writeLE 4 3 ++ writeLE 8 (vars.length * 8) ++ (List.range vars.length).flatMap fun i => writeLE 8 i)

end

/-! ### Witness -/

/-- `w.0.remove(&v).unwrap()` for a sequence of variables. -/
def takeAll (w : SMap F) : List Variable → Option (List F × SMap F)
  | [] => some ([], w)
  | v :: vs => match SMap.get w v with
    | none => none
    | some x => match takeAll (SMap.erase w v) vs with
      | none => none
      | some (xs, w) => some (x :: xs, w)

/-- The values written by `write_witness_values`, `witness.rs:77-104`, in order. -/
def witnessValues (w : SMap F) (pub : VarSet) : Option (List F) :=
  let one := (SMap.get w Variable.one).toList
  let w := SMap.erase w Variable.one
  let n := (w.filter fun kv => Variable.isOutput kv.1).length
  match takeAll w ((List.range n).map Variable.pub) with
  | none => none
  | some (outs, w) => match takeAll w (SMap.keys pub) with
    | none => none
    | some (ins, w) => some (one ++ outs ++ ins ++ w.map Prod.snd)

/-- `ProgIterator::public_inputs`, `ir/mod.rs:270-276`: collected into a `BTreeSet`. -/
def publicInputSet (p : Prog F Z) : VarSet := p.publicInputs.foldl (fun s v => SMap.insert s v ()) []

/-- `write_witness`, `witness.rs:28-66`. -/
def writeWtns {p : ℕ} (w : SMap (ZMod p)) (pub : VarSet) : Option Bytes := match witnessValues w pub with
  | none => none
  | some vals =>
    let fs := (modulusBytes p).length
    some ([0x77, 0x74, 0x6e, 0x73] ++ writeLE 4 2 ++ writeLE 4 2 ++
      writeLE 4 1 ++ writeLE 8 (8 + fs) ++ (writeLE 4 fs ++ modulusBytes p ++ writeLE 4 w.length) ++
      writeLE 4 2 ++ writeLE 8 (w.length * fs) ++ vals.flatMap fun x => padBytes fs (toBytesLe x.val))

/-! ### SMT-LIB -/

/-- The S-expressions of the export. The concrete syntax (parentheses, decimal numerals, `|…|` around names) is not modelled. -/
inductive SExp where
  | num (n : ℕ)
  | sym (name : List Char)
  | app (op : String) (args : List SExp)

/-- `|{}|` of `Display` for a variable, `smtlib2.rs:133-137`. -/
def smtVar (v : Variable) : SExp := .sym v.display

/-- `SMTLib2 for LinComb`, `smtlib2.rs:107-131`. -/
def smtLin {p : ℕ} (l : LinComb (ZMod p)) : SExp := match l with
  | [] => .num 0
  | [t] => .app "*" [smtVar t.1, .num t.2.val]
  | l => .app "+" (l.map fun t => .app "*" [smtVar t.1, .num t.2.val])

/-- `SMTLib2 for QuadComb`, `smtlib2.rs:101-105`. -/
def smtQuad {p : ℕ} (q : QuadComb (ZMod p)) : SExp := .app "*" [smtLin q.left, smtLin q.right]

/-- The name of the modulus. -/
def primeName : List Char := "~prime".toList

/-- `SMTLib2 for Statement`, `smtlib2.rs:77-99`: nothing for directives and logs; blocks are `unreachable!()`. -/
def smtStmts {p : ℕ} : List (Stmt (ZMod p) Z) → Option (List SExp)
  | [] => some []
  | .block _ :: _ => none
  | .constraint c :: ss => match smtStmts ss with
    | none => none
    | some es => some (.app "=" [.app "mod" [smtQuad c.quad, .sym primeName],
        .app "mod" [smtLin c.lin, .sym primeName]] :: es)
  | .directive _ :: ss => smtStmts ss
  | .log _ :: ss => smtStmts ss

mutual
/-- The visitor collecting the variables of a statement, `visitor.rs:54-104` and `smtlib2.rs:27-31`. -/
def smtVars : Stmt F Z → VarSet → VarSet
  | .block ss, s => smtVarsL ss s
  | .constraint c, s => collectLin (collectLin (collectLin s c.quad.left) c.quad.right) c.lin
  | .directive d, s =>
    d.outputs.foldl (fun s v => SMap.insert s v ()) (d.inputs.foldl (fun s q => collectLin (collectLin s q.left) q.right) s)
  | .log l, s => l.foldl (fun s e => e.foldl collectLin s) s
/-- Over a list of statements. -/
def smtVarsL : List (Stmt F Z) → VarSet → VarSet
  | [], s => s
  | st :: ss, s => smtVarsL ss (smtVars st s)
end

/-- The script of `SMTLib2 for Prog`, `smtlib2.rs:33-63`: the declared names and the asserted formula. -/
def smtProg {p : ℕ} (prog : Prog (ZMod p) Z) : Option (List (List Char) × SExp) :=
  let vars := SMap.insert (smtVarsL prog.statements (prog.arguments.foldl (fun s a => SMap.insert s a.id ()) []))
    Variable.one ()
  match smtStmts prog.statements with
  | none => none
  | some es => some (primeName :: (SMap.keys vars).map Variable.display,
      .app "and" (.app "=" [.sym primeName, .num ((Fld.maxValue p).val + 1)] ::
        .app "=" [smtVar Variable.one, .num 1] :: es))

/-! ### Backends -/

/-- The variables of the constraint system of a backend: public ones, other ones, and the constant one. -/
inductive Wire where
  | one
  | input (i : ℕ)
  | aux (i : ℕ)
deriving DecidableEq, Repr

/-- The state of `generate_constraints` / `synthesize`: the map `symbols`, the remaining witness, the variables allocated as
public inputs and as auxiliary variables, in order, with the value taken from the witness (`none` is `AssignmentMissing`,
which is only raised if the backend asks for the value, i.e. when proving), and the constraints. -/
structure Synth (F : Type _) where
  symbols : SMap Wire
  witness : SMap F
  inputs : List (Variable × Option F)
  auxs : List (Variable × Option F)
  constraints : List (List (F × Wire) × List (F × Wire) × List (F × Wire))

/-- `cs.new_input_variable` / `cs.alloc_input` with the closure that removes the value from the witness. -/
def allocInput (s : Synth F) (v : Variable) : Wire × Synth F :=
  (.input s.inputs.length, { s with inputs := s.inputs ++ [(v, SMap.get s.witness v)], witness := SMap.erase s.witness v })

/-- `cs.new_witness_variable` / `cs.alloc`. -/
def allocAux (s : Synth F) (v : Variable) : Wire × Synth F :=
  (.aux s.auxs.length, { s with auxs := s.auxs ++ [(v, SMap.get s.witness v)], witness := SMap.erase s.witness v })

/-- `symbols.entry(k).or_insert_with(..)`, `zokrates_ark/src/lib.rs:52-69`, `zokrates_bellman/src/lib.rs:57-82`. -/
def symbol (s : Synth F) (v : Variable) : Wire × Synth F := match SMap.get s.symbols v with
  | some w => (w, s)
  | none =>
    let r := if v.isOutput then allocInput s v else allocAux s v
    (r.1, { r.2 with symbols := SMap.insert r.2.symbols v r.1 })

/-- `ark_combination`, `zokrates_ark/src/lib.rs:41-73`, and `bellman_combination`, `zokrates_bellman/src/lib.rs:47-85`; a
`LinearCombination` of the external libraries is its list of terms. -/
def combination : LinComb F → Synth F → List (F × Wire) × Synth F
  | [], s => ([], s)
  | (k, v) :: l, s =>
    let r := symbol s k
    let r' := combination l r.2
    ((v, r.1) :: r'.1, r'.2)

/-- One statement, `zokrates_ark/src/lib.rs:115-123`; anything but a constraint is ignored. -/
def synthStmt (s : Synth F) : Stmt F Z → Synth F
  | .constraint c =>
    let a := combination c.quad.left s
    let b := combination c.quad.right a.2
    let l := combination c.lin b.2
    { l.2 with constraints := l.2.constraints ++ [(a.1, b.1, l.1)] }
  | _ => s

/-- The allocation of the arguments, `zokrates_ark/src/lib.rs:91-113`; `symbols.extend` inserts each pair as the iterator
yields it. -/
def synthArg (s : Synth F) (a : Parameter) : Synth F :=
  let r := if a.priv then allocAux s a.id else allocInput s a.id
  { r.2 with symbols := SMap.insert r.2.symbols a.id r.1 }

/-- `generate_constraints`, `zokrates_ark/src/lib.rs:79-131`, and `synthesize`, `zokrates_bellman/src/lib.rs:90-139`. -/
def synthesize (p : Prog F Z) (w : SMap F) : Synth F :=
  let s : Synth F := ⟨SMap.insert [] Variable.one .one, w, [], [], []⟩
  p.statements.foldl synthStmt (p.arguments.foldl synthArg s)

/-- `Witness::return_values`, `witness.rs:12-23`. -/
def returnValues (w : SMap F) : Option (List F) :=
  let n := (w.filter fun kv => Variable.isOutput kv.1).length
  (List.range n).mapM fun i => SMap.get w (Variable.pub i)

/-- `ProgIterator::public_inputs_values`, `ir/mod.rs:278-288`. -/
def publicInputsValues (p : Prog F Z) (w : SMap F) : Option (List F) :=
  match p.publicInputs.mapM (SMap.get w), returnValues w with
  | some a, some b => some (a ++ b)
  | _, _ => none

end Zok.Export
