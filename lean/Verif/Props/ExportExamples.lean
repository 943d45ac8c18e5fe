import Verif.Props.Export
import Verif.Spec.Curves
import Verif.Lemmas.StmtDecEq

/-
C33–C36: examples meeting the assumptions of the theorems, and the defects of the code.
-/

namespace Zok.Export

/-- `def main(field a, private field b) -> (field, field)`: `q = a / b`, outputs `a * b` and `a + b`. -/
def exProg {p : ℕ} [Fact p.Prime] : Prog (ZMod p) Unit :=
  ⟨[⟨1, false⟩, ⟨2, true⟩], 2,
    [.directive ⟨[⟨[(Variable.one, 1)], [(1, 1)]⟩, ⟨[(Variable.one, 1)], [(2, 1)]⟩], [3], .div⟩,
     .constraint ⟨⟨[(3, 1)], [(2, 1)]⟩, [(1, 1)], none⟩,
     .constraint ⟨⟨[(1, 1)], [(2, 1)]⟩, [(Variable.pub 0, 1)], none⟩,
     .constraint ⟨⟨[(1, 1), (2, 1)], [(Variable.one, 1)]⟩, [(Variable.pub 1, 1)], none⟩], []⟩

theorem exProg_args {p : ℕ} [Fact p.Prime] : ArgsInternal (exProg (p := p)) := by
  refine ⟨by simp [exProg], ?_⟩
  intro a ha
  simp only [exProg, List.mem_cons, List.not_mem_nil, or_false] at ha
  rcases ha with rfl | rfl <;> decide

theorem exProg_noBlock {p : ℕ} [Fact p.Prime] (b : List (Stmt (ZMod p) Unit)) : Stmt.block b ∉ (exProg (p := p)).statements := by
  simp [exProg]

/-- The example has an R1CS with 6 wires and 3 rows. -/
example : (r1csProgram (exProg (p := 97))).map (fun t => (t.1, t.2.1, t.2.2.length)) =
    some ([Variable.one, Variable.pub 0, Variable.pub 1, 1, 2, 3], 4, 3) := by decide +kernel

/-- The assumptions of `C33_file` hold for the example over the field of `Bn128`. -/
example : ∃ file ss, writeR1cs (exProg (p := Bn128)) = some file ∧ rdFile [0x72, 0x31, 0x63, 0x73] 1 file = some ss ∧
    (rdR1cs ss).map (fun f => (f.prime, f.nWires, f.nPubOut, f.nPubIn, f.nPrvIn)) = some (Bn128, 6, 2, 1, 1) := by
  obtain ⟨vars, rs, file, h1, h2, h3⟩ := C33_file (p := Bn128) (by norm_num) (by norm_num) exProg exProg_args
    exProg_noBlock (by norm_num [exProg])
  have hl : (writeR1cs (exProg (p := Bn128))).map List.length = some 556 := by decide +kernel
  rw [h2] at hl
  simp only [Option.map_some, Option.some.injEq] at hl
  obtain ⟨ss, h4, h5⟩ := h3 (by rw [hl]; norm_num)
  refine ⟨file, ss, h2, h4, ?_⟩
  have hv : (r1csProgram (exProg (p := Bn128))).map (fun t => t.1.length) = some 6 := by decide +kernel
  rw [h1] at hv
  simp only [Option.map_some, Option.some.injEq] at hv
  rw [h5, hv]
  rfl

/-- Semantics without user-defined solvers. -/
def noSem {p : ℕ} : SolverSem (ZMod p) Unit := ⟨fun _ => (0, 0), fun _ _ => .ok [], fun _ _ => []⟩

/-- The witness of the example for `a = 6`, `b = 3`. -/
def exWitness : SMap (ZMod 97) := [(Variable.pub 1, 9), (Variable.pub 0, 18), (Variable.one, 1), (1, 6), (2, 3), (3, 2)]

theorem exRun : execute (noSem (p := 97)) false [6, 3] (exProg (p := 97)).statements (exProg (p := 97)).arguments
    (exProg (p := 97)).solvers = .ok exWitness := by decide +kernel

/-- The assumptions of `C34_execution` hold for the example. -/
example : ∃ (vars : List Variable) (off : ℕ) (rs : List (Row (ZMod 97))) (vals : List (ZMod 97)) (file : Ser.Bytes),
    r1csProgram (exProg (p := 97)) = some (vars, off, rs) ∧
    writeWtns exWitness (publicInputSet (exProg (p := 97))) = some file ∧
    vals.map some = vars.map (SMap.get exWitness) ∧
    (SatAll (assignmentOf exWitness) (exProg (p := 97)).statements → ∀ r ∈ rs, RowSat (fun i => vals.getD i 0) r) ∧
    (file.length < 2 ^ 32 → ∃ ss, rdFile [0x77, 0x74, 0x6e, 0x73] 2 file = some ss ∧ rdWtns ss = some (97, vals.map ZMod.val)) :=
  C34_execution exProg exProg_args (by decide) exProg_noBlock
    (by decide +kernel)
    (by
      intro d hd v hv
      simp only [exProg, List.mem_cons, Stmt.directive.injEq, reduceCtorEq, List.not_mem_nil, or_false] at hd
      subst hd
      simp only [List.mem_singleton] at hv
      subst hv
      decide +kernel)
    (by
      intro v hv
      have e1 : constraintVars (exProg (p := 97)).statements =
        [3, 2, 1, 1, 2, Variable.pub 0, 1, 2, Variable.one, Variable.pub 1] := by decide +kernel
      have e2 : (exProg (p := 97)).returns = [Variable.pub 0, Variable.pub 1] := by decide +kernel
      rw [e1, e2]
      have n3 : v ≠ 3 := by rintro rfl; exact absurd hv (by decide)
      have n2 : v ≠ 2 := by rintro rfl; exact absurd hv (by decide)
      have n1 : v ≠ 1 := by rintro rfl; exact absurd hv (by decide)
      have n0 : v ≠ Variable.one := by rintro rfl; exact absurd hv (by decide)
      simp only [List.mem_cons, List.not_mem_nil, or_false, n3, n2, n1, n0, false_or])
    noSem false [6, 3] exWitness exRun

/-- A program whose first private argument is only printed: `def main(private field a, private field b) { log(a); assert(b * b == b) }`. -/
def logProg : Prog (ZMod 97) Unit :=
  ⟨[⟨1, true⟩, ⟨2, true⟩], 0,
    [.log [[[(1, 1)]]], .constraint ⟨⟨[(2, 1)], [(2, 1)]⟩, [(2, 1)], none⟩], []⟩

/-- **C34** fails for programs with variables that occur in no constraint, for instance a private argument that is only
printed (the compiler accepts it, `C32_log_only`): the R1CS has the wires `~one` and `b`, and the values written are those of
`~one`, `a` and `b`: the second one is not the value of the second wire, and it does not satisfy the row `b * b == b`. -/
theorem C34_log_only_misaligned :
    ∃ (w : SMap (ZMod 97)) (rs : List (Row (ZMod 97))) (vals : List (ZMod 97)),
      execute noSem false [5, 1] logProg.statements logProg.arguments logProg.solvers = .ok w ∧
      r1csProgram logProg = some ([Variable.one, 2], 1, rs) ∧ witnessValues w (publicInputSet logProg) = some vals ∧
      vals = [1, 5, 1] ∧ SMap.get w 2 = some 1 ∧ ¬ ∀ r ∈ rs, RowSat (fun i => vals.getD i 0) r := by
  refine ⟨[(Variable.one, 1), (1, 5), (2, 1)], [([(1, 1)], [(1, 1)], [(1, 1)])], [1, 5, 1], ?_, ?_, ?_, rfl, rfl, ?_⟩
  · decide +kernel
  · rfl
  · decide +kernel
  · simp only [List.mem_singleton, forall_eq, RowSat, dot]
    decide +kernel

/-- The assumptions of `C35_smt_faithful` hold for the example: it has a formula, which has a model. -/
example : ∃ decls φ, smtProg (exProg (p := 97)) = some (decls, φ) ∧ ∃ σ, φ.AndHolds σ := by
  obtain ⟨decls, φ, h⟩ := (C35_total (exProg (p := 97))).2 exProg_noBlock
  refine ⟨decls, φ, h, ?_⟩
  let ρ : Assignment (ZMod 97) := assignmentOf exWitness
  obtain ⟨σ, h1, h2, h3⟩ := C35_complete ρ (by decide +kernel)
  refine ⟨σ, (C35_smt_faithful _ _ _ h σ).2 ⟨h1, h2, ?_⟩⟩
  have : (fun v : Variable => ((σ v.display : ℤ) : ZMod 97)) = ρ := funext h3
  rw [this]
  intro s hs
  simp only [exProg, List.mem_cons, List.not_mem_nil, or_false] at hs
  rcases hs with rfl | rfl | rfl | rfl
  · exact .directive _
  all_goals exact .constraint (by unfold Constraint.Sat; decide +kernel)

/-- The assumptions of `C36_public_inputs` hold for the example. -/
example : (synthesize (exProg (p := 97)) exWitness).inputs = [(1, some 6), (Variable.pub 0, some 18), (Variable.pub 1, some 9)] ∧
    publicInputsValues (exProg (p := 97)) exWitness = some [6, 18, 9] ∧
    firstOccurrences [] ((constraintVars (exProg (p := 97)).statements).filter Variable.isOutput) = (exProg (p := 97)).returns := by
  decide +kernel

/-- The second output is constrained before the first one. -/
def swapProg : Prog (ZMod 97) Unit :=
  ⟨[⟨1, false⟩], 2,
    [.constraint ⟨⟨[(1, 1)], [(1, 1)]⟩, [(Variable.pub 1, 1)], none⟩,
     .constraint ⟨⟨[(1, 2)], [(Variable.one, 1)]⟩, [(Variable.pub 0, 1)], none⟩], []⟩

/-- **C36** fails if the outputs do not occur in order: the public wires are `a`, then the second output, then the first one,
but the verifier gets the first one first. -/
theorem C36_order_matters :
    ∃ w : SMap (ZMod 97), execute noSem false [3] swapProg.statements swapProg.arguments swapProg.solvers = .ok w ∧
      (synthesize swapProg w).inputs.map Prod.snd = [some 3, some 9, some 6] ∧
      publicInputsValues swapProg w = some [3, 6, 9] := by
  refine ⟨[(Variable.pub 1, 9), (Variable.pub 0, 6), (Variable.one, 1), (1, 3)], ?_, ?_, ?_⟩ <;> decide +kernel

/-- **C36**. Constraints in assembly blocks are not handed to the backend: this program is unsatisfiable, its circuit is not.
(Compiled programs have no blocks: `C33_cleaned`.) -/
theorem C36_blocks_ignored :
    let prog : Prog (ZMod 97) Unit :=
      ⟨[], 0, [.block [.constraint ⟨⟨[(Variable.one, 1)], [(Variable.one, 1)]⟩, [], none⟩]], []⟩
    (∀ ρ : Assignment (ZMod 97), ρ Variable.one = 1 → ¬ SatAll ρ prog.statements) ∧ (synthesize prog []).constraints = [] := by
  refine ⟨fun ρ h1 hs => ?_, rfl⟩
  have := hs _ List.mem_cons_self
  cases this with
  | block h =>
    have := h _ List.mem_cons_self
    cases this with
    | constraint h => simp [Constraint.Sat, QuadComb.val, LinComb.val, h1] at h

end Zok.Export
