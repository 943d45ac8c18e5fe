import Verif.Lemmas.ExportFile
import Verif.Lemmas.ExportSmt
import Verif.Lemmas.ExportSynth
import Verif.Lemmas.Params
import Verif.Model.Compile
import Verif.Props.Serialize
import Verif.Props.Display
import Verif.Spec.TestField

/-
C33–C36: the exported R1CS, the exported witness, the SMT-LIB export, and the circuits of the proving backends.
-/

namespace Zok.Export
open Ser (Bytes)

/-! ### Compiled programs meet the assumptions on arguments -/

/-- The arguments of a compiled program are increasing internal variables. -/
theorem lowered_args {p : ℕ} {Z : Type} [Fact p.Prime] {f : ZFun (ZMod p) Z} {P : Prog (ZMod p) Z} {b : Bool}
    (h : lowerProgram f = some (P, b)) :
    ArgsInternal P ∧ (P.arguments.map Parameter.id).Pairwise (fun x y => x < y) := by
  unfold lowerProgram fromProgram at h
  cases hf : Flt.flattenFun f (FlState.init p Z) with
  | none => rw [hf] at h; cases h
  | some t =>
    obtain ⟨args, st⟩ := t
    rw [hf] at h
    simp only [Option.map_some] at h
    cases hi : FlatStmt.toIrL st.out with
    | none => rw [hi] at h; cases h
    | some ts =>
      rw [hi] at h
      simp only [Option.some.injEq, Prod.mk.injEq] at h
      obtain ⟨rfl, -⟩ := h
      unfold Flt.flattenFun at hf
      obtain ⟨as, st1, h1, h2⟩ := FlatM.bind_some hf
      obtain ⟨u, st2, h3, h4⟩ := FlatM.bind_some h2
      have h4' : some (as, st2) = some (args, st) := h4
      cases h4'
      obtain ⟨-, -, -, hp, hb⟩ := useParameters_noClash _ h1 (fun _ _ => rfl)
      refine ⟨⟨hp.imp fun h => ne_of_lt h, ?_⟩, hp⟩
      intro a ha
      obtain ⟨k, hk, -⟩ := hb a ha
      rw [hk]
      show (0 : ℤ) < 1 + k
      omega

/-! ### C33 -/

section
variable {F Z : Type _} [Field F]

/-- **C33**. For a program without assembly blocks whose arguments are distinct internal variables (`lowered_args`,
`C33_cleaned`), `r1cs_program` succeeds. The wires are pairwise different: `~one`, the outputs in order, the public inputs in
argument order, then the other variables of the constraints. There is one row per constraint. The rows hold for the wire
values `x` of an assignment iff the assignment satisfies the program, and every vector of wire values is that of an
assignment. -/
theorem C33_r1cs_faithful (p : Prog F Z) (args : ArgsInternal p) (nb : ∀ b, Stmt.block b ∉ p.statements) :
    ∃ vars rs rest, r1csProgram p = some (vars, 1 + p.returnCount + p.publicInputs.length, rs) ∧
      vars = Variable.one :: ((List.range p.returnCount).map Variable.pub ++
        (p.arguments.filter fun a => !a.priv).map Parameter.id ++ rest) ∧
      vars.Nodup ∧
      (∀ v, v ∈ rest → v ∈ constraintVars p.statements) ∧ (∀ v, v ∈ constraintVars p.statements → v ∈ vars) ∧
      rs.length = (p.statements.filter Ser.isConstraint).length ∧ (∀ r ∈ rs, RowBounded vars.length r) ∧
      (∀ (x : ℕ → F) (ρ : Assignment F), (∀ i v, vars[i]? = some v → x i = ρ v) →
        ((∀ r ∈ rs, RowSat x r) ↔ SatAll ρ p.statements)) ∧
      ∀ x : ℕ → F, ∃ ρ : Assignment F, ∀ i v, vars[i]? = some v → x i = ρ v := by
  obtain ⟨vars, rs, rest, h1, h2, h3, -, h5, h6, h7, h8⟩ := r1cs_spec p args nb
  refine ⟨vars, rs, rest, h1, h2, h3, fun v hv => ((h5 v).1 hv).1, ?_, h6, h7, h8, ?_⟩
  · intro v hv
    rw [h2]
    by_cases hk : v ∈ Variable.one :: (p.returns ++ p.publicInputs)
    · simp only [List.mem_cons, List.mem_append] at hk ⊢
      tauto
    · have := (h5 v).2 ⟨hv, hk⟩
      simp [this]
  · intro x
    refine ⟨fun v => x (vars.idxOf v), fun i v hv => ?_⟩
    obtain ⟨hi, he⟩ := List.getElem?_eq_some_iff.1 hv
    subst he
    simp only [h3.idxOf_getElem i hi]

omit [Field F] in
/-- **C33**. An assembly block at the top level is a panic. -/
theorem C33_blocks_panic (p : Prog F Z) (b : List (Stmt F Z)) (hb : Stmt.block b ∈ p.statements) : r1csProgram p = none := by
  unfold r1csProgram
  cases h : constraintsOf p.statements with
  | none => rfl
  | some cs => exact absurd hb ((constraintsOf_isSome p.statements).1 ⟨cs, h⟩ b)

mutual
theorem clean_no_block {F Z : Type _} (s : Stmt F Z) (b : List (Stmt F Z)) : Stmt.block b ∉ s.clean := by
  cases s with
  | block ss => simp only [Stmt.clean]; exact cleanL_no_block ss b
  | constraint c => simp [Stmt.clean]
  | directive c => simp [Stmt.clean]
  | log c => simp [Stmt.clean]
theorem cleanL_no_block {F Z : Type _} (ss : List (Stmt F Z)) (b : List (Stmt F Z)) : Stmt.block b ∉ Stmt.cleanL ss := by
  cases ss with
  | nil => simp [Stmt.cleanL]
  | cons s ss =>
    simp only [Stmt.cleanL, List.mem_append, not_or]
    exact ⟨clean_no_block s b, cleanL_no_block ss b⟩
end

omit [Field F] in
/-- **C33**. The compiler's last pass (`clean`) removes all blocks, so compiled programs can be exported. -/
theorem C33_cleaned (ss : List (Stmt F Z)) (b : List (Stmt F Z)) : Stmt.block b ∉ Stmt.cleanL ss := cleanL_no_block ss b

end

section
variable {p : ℕ} [Fact p.Prime] {Z : Type _}

/-- **C33**, files. For a field whose modulus takes exactly 32 bytes, a reader of the iden3 format finds in the written file
(if it is smaller than 4 GB) the modulus, the numbers of wires, outputs and inputs, and the rows of `r1cs_program`. -/
theorem C33_file (h31 : 256 ^ 31 ≤ p) (h32 : p < 256 ^ 32) (prog : Prog (ZMod p) Z) (args : ArgsInternal prog)
    (nb : ∀ b, Stmt.block b ∉ prog.statements) (hargs : prog.arguments.length < 2 ^ 32) :
    ∃ vars rs file, r1csProgram prog = some (vars, 1 + prog.returnCount + prog.publicInputs.length, rs) ∧
      writeR1cs prog = some file ∧ (file.length < 2 ^ 32 →
        ∃ ss, rdFile [0x72, 0x31, 0x63, 0x73] 1 file = some ss ∧ rdR1cs ss = some ⟨p, vars.length, prog.returnCount,
          (prog.arguments.filter fun a => !a.priv).length, (prog.arguments.filter fun a => a.priv).length, vars.length,
          rs.map natRow⟩) := by
  obtain ⟨vars, rs, rest, h1, h2, h3, -, -, -, h7, -⟩ := r1cs_spec prog args nb
  have hf : ∃ file, writeR1cs prog = some file := by
    unfold writeR1cs
    rw [h1]
    exact ⟨_, rfl⟩
  obtain ⟨file, hf⟩ := hf
  refine ⟨vars, rs, file, h1, hf, fun hs => rdR1cs_write h31 h32 prog h1 h7 ?_ hargs hf hs⟩
  rw [h2]
  simp only [List.length_cons, List.length_append, Prog.returns, List.length_map, List.length_range]
  omega

/-- The program with the constraint `1 * 1 == c`. -/
def constProg (c : ZMod p) : Prog (ZMod p) Z :=
  ⟨[], 0, [.constraint ⟨⟨[(Variable.one, 1)], [(Variable.one, 1)]⟩, [(Variable.one, c)], none⟩], []⟩

/-- **C33**. For a field with a wider modulus (`BW6_761`), coefficients are truncated to 32 bytes: two programs with different
meanings have the same file. -/
theorem C33_wide_field_truncated (hp : 2 ^ 256 + 1 < p) :
    (∃ file, writeR1cs (constProg (Z := Z) (1 : ZMod p)) = some file ∧
      writeR1cs (constProg (Z := Z) ((2 ^ 256 + 1 : ℕ) : ZMod p)) = some file) ∧
    (∀ ρ : Assignment (ZMod p), ρ Variable.one = 1 → SatAll ρ (constProg (Z := Z) (1 : ZMod p)).statements ∧
      ¬ SatAll ρ (constProg (Z := Z) ((2 ^ 256 + 1 : ℕ) : ZMod p)).statements) := by
  have hv : ((2 ^ 256 + 1 : ℕ) : ZMod p).val = 2 ^ 256 + 1 := ZMod.val_cast_of_lt hp
  have hr : ∀ c : ZMod p, r1csProgram (constProg (Z := Z) c) = some ([Variable.one], 1, [([(0, 1)], [(0, 1)], [(0, c)])]) :=
    fun c => rfl
  have hpow : (2 ^ 256 + 1) % 256 ^ 32 = 1 := by norm_num
  have hb : Fld.bytesLE 32 (2 ^ 256 + 1) = Fld.bytesLE 32 1 := by decide +kernel
  have h1v : (1 : ZMod p).val = 1 := by
    have : Fact (1 < p) := ⟨by omega⟩
    exact ZMod.val_one p
  constructor
  · suffices H : writeR1cs (constProg (Z := Z) (1 : ZMod p)) = writeR1cs (constProg (Z := Z) ((2 ^ 256 + 1 : ℕ) : ZMod p)) by
      have : ∃ file, writeR1cs (constProg (Z := Z) (1 : ZMod p)) = some file := by
        unfold writeR1cs
        rw [hr]
        exact ⟨_, rfl⟩
      obtain ⟨file, hf⟩ := this
      exact ⟨file, hf, by rw [← H, hf]⟩
    unfold writeR1cs
    rw [hr, hr]
    simp only [writeRows, writeLincomb, List.flatMap_cons, List.flatMap_nil, padBytes_toBytesLe, hv, hb, h1v, List.map_cons,
      List.map_nil, List.length_cons, List.length_nil, constProg]
  · intro ρ hρ
    have hsat : ∀ c : ZMod p, SatAll ρ (constProg (Z := Z) c).statements ↔ c = 1 := by
      intro c
      unfold SatAll constProg
      simp only [List.mem_singleton, forall_eq]
      constructor
      · intro hc
        cases hc with
        | constraint h => simpa [Constraint.Sat, QuadComb.val, LinComb.val, hρ, eq_comm] using h
      · intro h
        exact .constraint (by simp [Constraint.Sat, QuadComb.val, LinComb.val, hρ, h])
    rw [hsat, hsat]
    refine ⟨rfl, fun h => ?_⟩
    have := congrArg ZMod.val h
    rw [hv, h1v] at this
    norm_num at this

end

/-! ### C34 -/

section
variable {F Z : Type _} [Field F]

/-- **C34**. If the public arguments are increasing (`lowered_args`), the only outputs in the constraints are the program's,
and the witness binds exactly the wires, then the `i`-th value written is that of the `i`-th wire. -/
theorem C34_aligned (p : Prog F Z) (args : ArgsInternal p) (inc : p.publicInputs.Pairwise (fun a b => a < b))
    (vars : List Variable) (off : ℕ) (rs : List (Row F)) (hr : r1csProgram p = some (vars, off, rs))
    (outs : ∀ v ∈ vars, (v : ℤ) < 0 → v ∈ p.returns)
    (w : SMap F) (hs : SMap.Sorted w) (hk : ∀ v, v ∈ SMap.keys w ↔ v ∈ vars) :
    ∃ vals, witnessValues w (publicInputSet p) = some vals ∧ vals.map some = vars.map (SMap.get w) := by
  have nb : ∀ b, Stmt.block b ∉ p.statements := by
    intro b hb
    rw [C33_blocks_panic p b hb] at hr
    cases hr
  obtain ⟨vars', rs', rest, h1, h2, h3, h4, h5, h6⟩ := r1cs_spec p args nb
  rw [h1] at hr
  simp only [Option.some.injEq, Prod.mk.injEq] at hr
  obtain ⟨rfl, -, -⟩ := hr
  subst h2
  refine witnessValues_aligned p args inc rest h4 w hs ?_ (fun v hv => ((h5 v).1 hv).2) hk
  intro v hv hneg
  have := outs v (by simp [hv]) hneg
  exact ((h5 v).1 hv).2 (by simp [this])

end

section
variable {p : ℕ} [Fact p.Prime] {Z : Type _}

/-- **C34**, executions. For a program without blocks whose private arguments and directive outputs occur in constraints (see
`C34_serialised`) and whose outputs are those in the constraints, the witness of any successful execution is written in the
order of the wires of the exported R1CS; if it satisfies the program (C01), the values satisfy the rows; reading the written file gives the modulus and the
canonical representatives of the values. -/
theorem C34_execution (prog : Prog (ZMod p) Z) (args : ArgsInternal prog)
    (inc : prog.publicInputs.Pairwise (fun a b => a < b)) (nb : ∀ b, Stmt.block b ∉ prog.statements)
    (priv : ∀ a ∈ prog.arguments, a.priv = true → a.id ∈ constraintVars prog.statements)
    (dirs : ∀ d, Stmt.directive d ∈ prog.statements → ∀ v ∈ d.outputs, v ∈ constraintVars prog.statements)
    (outs : ∀ v : Variable, (v : ℤ) < 0 → (v ∈ constraintVars prog.statements ↔ v ∈ prog.returns))
    (sem : SolverSem (ZMod p) Z) (oor : Bool) (inputs : List (ZMod p)) (w : Witness (ZMod p))
    (h : execute sem oor inputs prog.statements prog.arguments prog.solvers = .ok w) :
    ∃ (vars : List Variable) (off : ℕ) (rs : List (Row (ZMod p))) (vals : List (ZMod p)) (file : Bytes),
      r1csProgram prog = some (vars, off, rs) ∧
      writeWtns w (publicInputSet prog) = some file ∧ vals.map some = vars.map (SMap.get w) ∧
      (SatAll (assignmentOf w) prog.statements → ∀ r ∈ rs, RowSat (fun i => vals.getD i 0) r) ∧
      (file.length < 2 ^ 32 → ∃ ss, rdFile [0x77, 0x74, 0x6e, 0x73] 2 file = some ss ∧
        rdWtns ss = some (p, vals.map ZMod.val)) := by
  obtain ⟨vars, rs, rest, h1, h2, h3, h4, h5, -, -, h8⟩ := r1cs_spec prog args nb
  obtain ⟨hs, hkeys⟩ := execute_keys h
  have hneg : ∀ v ∈ prog.returns, (v : ℤ) < 0 := by
    intro v hv
    obtain ⟨i, -, rfl⟩ := List.mem_map.1 hv
    show (-(i : ℤ) - 1) < 0
    omega
  have hk : ∀ v, v ∈ SMap.keys w ↔ v ∈ vars := by
    intro v
    rw [hkeys, h2]
    simp only [List.mem_cons, List.mem_append]
    constructor
    · rintro (rfl | hv | hv | ⟨d, hd, hv⟩)
      · exact Or.inl rfl
      · obtain ⟨a, ha, rfl⟩ := List.mem_map.1 hv
        by_cases hp : a.priv = true
        · by_cases hk : a.id ∈ Variable.one :: (prog.returns ++ prog.publicInputs)
          · simp only [List.mem_cons, List.mem_append] at hk
            tauto
          · exact Or.inr (Or.inr ((h5 _).2 ⟨priv a ha hp, hk⟩))
        · exact Or.inr (Or.inl (Or.inr (List.mem_map.2 ⟨a, List.mem_filter.2 ⟨ha, by simpa using hp⟩, rfl⟩)))
      · by_cases hk : v ∈ Variable.one :: (prog.returns ++ prog.publicInputs)
        · simp only [List.mem_cons, List.mem_append] at hk
          tauto
        · exact Or.inr (Or.inr ((h5 _).2 ⟨hv, hk⟩))
      · have hv' := dirs d hd v hv
        by_cases hk : v ∈ Variable.one :: (prog.returns ++ prog.publicInputs)
        · simp only [List.mem_cons, List.mem_append] at hk
          tauto
        · exact Or.inr (Or.inr ((h5 _).2 ⟨hv', hk⟩))
    · rintro (hv | (hv | hv) | hv)
      · exact Or.inl hv
      · exact Or.inr (Or.inr (Or.inl ((outs v (hneg v hv)).2 hv)))
      · obtain ⟨a, ha, rfl⟩ := List.mem_map.1 hv
        exact Or.inr (Or.inl (List.mem_map.2 ⟨a, (List.mem_filter.1 ha).1, rfl⟩))
      · exact Or.inr (Or.inr (Or.inl ((h5 v).1 hv).1))
  obtain ⟨vals, hv1, hv2⟩ := C34_aligned prog args inc vars _ rs h1 (by
    intro v hv hn
    rw [h2] at hv
    simp only [List.mem_cons, List.mem_append] at hv
    rcases hv with rfl | (hv | hv) | hv
    · exact absurd hn (lt_irrefl _)
    · exact hv
    · obtain ⟨a, ha, rfl⟩ := List.mem_map.1 hv
      exact absurd (args.2 a (List.mem_filter.1 ha).1) (lt_asymm hn)
    · exact (outs v hn).1 ((h5 v).1 hv).1) w hs hk
  have hf : ∃ file, writeWtns w (publicInputSet prog) = some file := by
    unfold writeWtns
    rw [hv1]
    exact ⟨_, rfl⟩
  obtain ⟨file, hf⟩ := hf
  refine ⟨vars, _, rs, vals, file, h1, hf, hv2, fun hsat => (h8 _ (assignmentOf w) ?_).2 hsat, fun hsz => rdWtns_write w _ hv1 hf hsz⟩
  intro i v hv
  have := congrArg (fun l => l[i]?) hv2
  simp only [List.getElem?_map, hv, Option.map_some] at this
  cases hi : vals[i]? with
  | none => rw [hi] at this; cases this
  | some y =>
    rw [hi] at this
    simp only [Option.map_some, Option.some.injEq] at this
    simp [List.getD, hi, assignmentOf, ← this]

end

section
variable {F Z M : Type _}

omit F Z M in
theorem atomsL_no_block {F Z : Type _} (ss : List (Stmt F Z)) (nb : ∀ b, Stmt.block b ∉ ss) : Ser.atomsL ss = ss := by
  induction ss with
  | nil => rfl
  | cons s ss ih =>
    have h := ih fun b hb => nb b (List.mem_cons_of_mem _ hb)
    cases s with
    | block b => exact absurd List.mem_cons_self (nb b)
    | _ => simp [Ser.atomsL, Ser.atoms, h]

omit F Z M in
theorem mem_constraintVars {F Z : Type _} (ss : List (Stmt F Z)) (v : Variable) (s : Stmt F Z) (hs : s ∈ ss)
    (h : Ser.InConstraint v s) : v ∈ constraintVars ss := by
  induction ss with
  | nil => cases hs
  | cons t ss ih =>
    rw [constraintVars_cons]
    rcases List.mem_cons.1 hs with rfl | hs
    · left
      cases s with
      | constraint c =>
        simp only [constraintVars, List.append_nil, List.mem_append, List.mem_map, Prod.exists, exists_and_right,
          exists_eq_right]
        simp only [Ser.InConstraint] at h
        tauto
      | block _ => exact absurd h id
      | directive _ => exact absurd h id
      | log _ => exact absurd h id
    · exact Or.inr (ih hs)

/-- **C34**. The compiler's check for unconstrained variables, made when the program is written to a file, gives the
assumptions of `C34_execution` on private arguments and directive outputs, for programs without logs. -/
theorem C34_serialised [DecidableEq Z] (cd : Ser.Codec F Z M) (sem : SolverSem F Z) (hash : Z → ℕ) (curveId : Bytes) (prog : Prog F Z) (mm : M)
    (nb : ∀ b, Stmt.block b ∉ prog.statements) (noLogs : ∀ l, Stmt.log l ∉ prog.statements) (n : ℕ)
    (ok : (Ser.serialize cd sem hash curveId prog mm).2 = .ok n) :
    (∀ a ∈ prog.arguments, a.priv = true → a.id ∈ constraintVars prog.statements) ∧
    ∀ d, Stmt.directive d ∈ prog.statements → ∀ v ∈ d.outputs, v ∈ constraintVars prog.statements := by
  have ha := atomsL_no_block prog.statements nb
  obtain ⟨h1, h2⟩ := Ser.C32_constrained cd sem hash curveId prog mm (by rw [ha]; exact noLogs) n ok
  rw [ha] at h1 h2
  constructor
  · intro a haa hp
    obtain ⟨s, hs, hi⟩ := h1 a.id ⟨a, haa, hp, rfl⟩
    exact mem_constraintVars _ _ s hs hi
  · intro d hd v hv
    obtain ⟨pre, post, e⟩ := List.append_of_mem hd
    obtain ⟨s, hs, hi⟩ := h2 pre d post e v hv
    exact mem_constraintVars _ _ s (by rw [e]; simp [hs]) hi

end

/-! ### C35 -/

section
variable {p : ℕ} {Z : Type _}

theorem prime_ne_display (v : Variable) : v.display ≠ primeName := by
  intro h
  have e0 : primeName = ['~', 'p', 'r', 'i', 'm', 'e'] := by decide
  have e1 : "~one".toList = ['~', 'o', 'n', 'e'] := by decide
  have e2 : "~out_".toList = ['~', 'o', 'u', 't', '_'] := by decide
  unfold Variable.display at h
  rw [e0, e1, e2] at h
  split at h
  · simp at h
  · split at h <;> simp at h

theorem sorted_foldl_insert (l : List Variable) (s : VarSet) (h : SMap.Sorted s) :
    SMap.Sorted (l.foldl (fun s v => SMap.insert s v ()) s) := by
  induction l generalizing s with
  | nil => exact h
  | cons a l ih => exact ih _ (SMap.sorted_insert h _ _)

mutual
theorem smtVars_sorted {F Z : Type _} (st : Stmt F Z) (s : VarSet) (h : SMap.Sorted s) : SMap.Sorted (smtVars st s) := by
  cases st with
  | block ss => simp only [smtVars]; exact smtVarsL_sorted ss s h
  | constraint c => exact sorted_collectLin _ _ (sorted_collectLin _ _ (sorted_collectLin _ _ h))
  | directive d =>
    refine sorted_foldl_insert _ _ ?_
    generalize d.inputs = l
    induction l generalizing s with
    | nil => exact h
    | cons q l ih => exact ih _ (sorted_collectLin _ _ (sorted_collectLin _ _ h))
  | log l =>
    simp only [smtVars]
    have key : ∀ (e : List (LinComb F)) (s : VarSet), SMap.Sorted s → SMap.Sorted (e.foldl collectLin s) := by
      intro e
      induction e with
      | nil => intro s h; exact h
      | cons a e ih => intro s h; exact ih _ (sorted_collectLin _ _ h)
    induction l generalizing s with
    | nil => exact h
    | cons e l ih => exact ih _ (key e s h)
theorem smtVarsL_sorted {F Z : Type _} (ss : List (Stmt F Z)) (s : VarSet) (h : SMap.Sorted s) : SMap.Sorted (smtVarsL ss s) := by
  cases ss with
  | nil => exact h
  | cons st ss =>
    simp only [smtVarsL]
    exact smtVarsL_sorted ss _ (smtVars_sorted st s h)
end

/-- **C35**. The asserted formula holds for a valuation of the names by integers iff `~prime` is the modulus, `~one` is `1` and
the residues of the values satisfy the constraints of the program. -/
theorem C35_smt_faithful [Fact p.Prime] (prog : Prog (ZMod p) Z) (decls : List (List Char)) (φ : SExp)
    (h : smtProg prog = some (decls, φ)) (σ : List Char → ℤ) :
    φ.AndHolds σ ↔ σ "~prime".toList = p ∧ σ "~one".toList = 1 ∧
      SatAll (fun v => ((σ v.display : ℤ) : ZMod p)) prog.statements := by
  unfold smtProg at h
  simp only at h
  cases hs : smtStmts prog.statements with
  | none => rw [hs] at h; cases h
  | some es =>
    rw [hs] at h
    simp only [Option.some.injEq, Prod.mk.injEq] at h
    obtain ⟨-, rfl⟩ := h
    have hp : (Fld.maxValue p).val + 1 = p := by
      rw [Fld.val_maxValue, Nat.sub_add_cancel Fld.p_pos]
    have hone : Variable.display Variable.one = "~one".toList := by decide
    have h1 : SExp.EqHolds σ (.app "=" [.sym primeName, .num ((Fld.maxValue p).val + 1)]) ↔ σ "~prime".toList = p := by
      rw [hp]
      simp only [SExp.EqHolds, SExp.int, Option.some.injEq]
      exact ⟨fun ⟨x, a, b⟩ => by rw [← b] at a; exact a, fun h => ⟨p, h, rfl⟩⟩
    have h2 : SExp.EqHolds σ (.app "=" [smtVar Variable.one, .num 1]) ↔ σ "~one".toList = 1 := by
      simp only [SExp.EqHolds, SExp.int, smtVar, Option.some.injEq, hone]
      exact ⟨fun ⟨x, a, b⟩ => by rw [← b] at a; simpa using a, fun h => ⟨1, h, by simp⟩⟩
    simp only [SExp.AndHolds, List.mem_cons, forall_eq_or_imp, h1, h2]
    constructor
    · rintro ⟨a, b, c⟩
      exact ⟨a, b, (smtStmts_holds σ a _ es hs).1 c⟩
    · rintro ⟨a, b, c⟩
      exact ⟨a, b, (smtStmts_holds σ a _ es hs).2 c⟩

/-- **C35**. The script is well formed: no name is declared twice, and every name of the formula is declared. -/
theorem C35_declared (prog : Prog (ZMod p) Z) (decls : List (List Char)) (φ : SExp) (h : smtProg prog = some (decls, φ)) :
    decls.Nodup ∧ ∀ s ∈ φ.names, s ∈ decls := by
  unfold smtProg at h
  simp only at h
  cases hs : smtStmts prog.statements with
  | none => rw [hs] at h; cases h
  | some es =>
    rw [hs] at h
    simp only [Option.some.injEq, Prod.mk.injEq] at h
    obtain ⟨rfl, rfl⟩ := h
    have hsorted : SMap.Sorted (smtVarsL prog.statements (prog.arguments.foldl (fun s a => SMap.insert s a.id ()) [])) := by
      refine smtVarsL_sorted _ _ ?_
      have := sorted_foldl_insert (prog.arguments.map Parameter.id) [] SMap.sorted_nil
      rwa [List.foldl_map] at this
    constructor
    · rw [List.nodup_cons]
      constructor
      · intro hc
        obtain ⟨v, -, hv⟩ := List.mem_map.1 hc
        exact prime_ne_display v hv
      · exact List.Nodup.map (fun a b hab => C40_display_injective a b hab) (nodup_keys (SMap.sorted_insert hsorted _ _))
    · intro s hsn
      simp only [SExp.names, SExp.namesL, smtVar, List.append_nil, List.mem_append, List.mem_singleton, List.nil_append,
        List.cons_append, List.mem_cons] at hsn
      rw [List.mem_cons, List.mem_map]
      rcases hsn with h | h | h
      · exact Or.inl h
      · exact Or.inr ⟨Variable.one, by rw [SMap.mem_insert_keys]; exact Or.inl rfl, h.symm⟩
      · rcases names_smtStmts _ _ hs s h with h | ⟨v, hv, h⟩
        · exact Or.inl h
        · refine Or.inr ⟨v, ?_, h.symm⟩
          rw [SMap.mem_insert_keys]
          exact Or.inr (mem_smtVarsL _ _ v hv)

/-- **C35**. The export succeeds exactly on programs without assembly blocks. -/
theorem C35_total (prog : Prog (ZMod p) Z) :
    (∃ decls φ, smtProg prog = some (decls, φ)) ↔ ∀ b, Stmt.block b ∉ prog.statements := by
  rw [← smtStmts_isSome]
  unfold smtProg
  simp only
  cases smtStmts prog.statements with
  | none => simp
  | some es => simp

/-- **C35**. Nothing is lost: every assignment with `~one = 1` is given by a valuation of the names. Hence the formula is
satisfiable iff the constraint system is. -/
theorem C35_complete [Fact p.Prime] (ρ : Assignment (ZMod p)) (h1 : ρ Variable.one = 1) :
    ∃ σ : List Char → ℤ, σ "~prime".toList = p ∧ σ "~one".toList = 1 ∧ ∀ v : Variable, ((σ v.display : ℤ) : ZMod p) = ρ v := by
  classical
  have hone : Variable.display Variable.one = "~one".toList := by decide
  let σ : List Char → ℤ := fun s => if s = primeName then p else
    if h : ∃ v : Variable, v.display = s then (if h.choose = Variable.one then 1 else ((ρ h.choose).val : ℤ)) else 0
  have hσ : ∀ v : Variable, σ v.display = if v = Variable.one then 1 else ((ρ v).val : ℤ) := by
    intro v
    have hex : ∃ u : Variable, u.display = v.display := ⟨v, rfl⟩
    have hc : hex.choose = v := C40_display_injective _ _ hex.choose_spec
    simp only [σ, if_neg (prime_ne_display v), dif_pos hex, hc]
  refine ⟨σ, by simp only [σ]; exact if_pos rfl, by rw [← hone, hσ, if_pos rfl], fun v => ?_⟩
  rw [hσ]
  split
  · rename_i h
    rw [h, h1]
    simp
  · simp

end

/-! ### C36 -/

section
variable {F Z : Type _} [Field F]

/-- **C36**. The circuit given to a proving backend for a program and a witness (from an empty witness for the setup): the
public wires are the public arguments in order, then the outputs in the order of their first occurrence in the constraints; no
variable has two wires; each wire gets the witness value of its variable; the constraints of the circuit hold for the values of
an assignment with `~one = 1` iff the (top level) constraints of the program do; and all values of the wires come from such an
assignment. -/
theorem C36_circuit (p : Prog F Z) (args : ArgsInternal p) (w : SMap F) (hw : SMap.Sorted w) :
    let s := synthesize p w
    s.inputs.map Prod.fst = p.publicInputs ++ firstOccurrences [] ((constraintVars p.statements).filter Variable.isOutput) ∧
    (Variable.one :: (s.inputs.map Prod.fst ++ s.auxs.map Prod.fst)).Nodup ∧
    (∀ e ∈ s.inputs ++ s.auxs, e.2 = SMap.get w e.1) ∧
    (∀ ρ : Assignment F, ρ Variable.one = 1 →
      ((∀ c ∈ s.constraints, WireSat (fun i => (s.inputs[i]?).elim 0 fun e => ρ e.1) (fun i => (s.auxs[i]?).elim 0 fun e => ρ e.1) c) ↔
        ∀ c, Stmt.constraint c ∈ p.statements → c.Sat ρ)) ∧
    ∀ inputs auxs : ℕ → F, ∃ ρ : Assignment F, ρ Variable.one = 1 ∧
      (∀ i e, s.inputs[i]? = some e → ρ e.1 = inputs i) ∧ ∀ i e, s.auxs[i]? = some e → ρ e.1 = auxs i := by
  intro s
  obtain ⟨inv, h1, h2, h3⟩ := synthesize_spec p args w hw
  refine ⟨h1, inv.nodup, ?_, ?_, ?_⟩
  · intro e he
    rcases List.mem_append.1 he with he | he
    · obtain ⟨i, hi⟩ := List.getElem?_of_mem he
      exact (inv.inp i e hi).2
    · obtain ⟨i, hi⟩ := List.getElem?_of_mem he
      exact (inv.aux i e hi).2
  · intro ρ hρ
    refine h3 _ _ ρ fun v wire hv => ?_
    have hb := (inv.bound v).1 (by rw [hv]; rfl)
    rw [List.mem_cons, List.mem_append] at hb
    rcases hb with rfl | hb | hb
    · rw [inv.one] at hv
      cases hv
      exact hρ.symm
    · obtain ⟨e, he, rfl⟩ := List.mem_map.1 hb
      obtain ⟨i, hi⟩ := List.getElem?_of_mem he
      rw [(inv.inp i e hi).1] at hv
      cases hv
      simp only [Wire.val]
      rw [show s.inputs[i]? = some e from hi]
      rfl
    · obtain ⟨e, he, rfl⟩ := List.mem_map.1 hb
      obtain ⟨i, hi⟩ := List.getElem?_of_mem he
      rw [(inv.aux i e hi).1] at hv
      cases hv
      simp only [Wire.val]
      rw [show s.auxs[i]? = some e from hi]
      rfl
  · intro inputs auxs
    refine ⟨fun v => ((SMap.get s.symbols v).map (Wire.val inputs auxs)).getD 0, ?_, ?_, ?_⟩
    · simp only [show SMap.get s.symbols Variable.one = some .one from inv.one]
      rfl
    · intro i e he
      simp only [show SMap.get s.symbols e.1 = some (.input i) from (inv.inp i e he).1]
      rfl
    · intro i e he
      simp only [show SMap.get s.symbols e.1 = some (.aux i) from (inv.aux i e he).1]
      rfl

omit [Field F] in
theorem mapM_some {α β : Type _} (f : α → Option β) (l : List α) (r : List β) (h : l.mapM f = some r) :
    r.map some = l.map f := by
  induction l generalizing r with
  | nil => simp at h; subst h; rfl
  | cons a l ih =>
    rw [List.mapM_cons] at h
    cases ha : f a with
    | none => rw [ha] at h; cases h
    | some b =>
      rw [ha] at h
      cases hl : l.mapM f with
      | none => rw [hl] at h; cases h
      | some r' =>
        rw [hl] at h
        have h' : some (b :: r') = some r := h
        cases h'
        rw [List.map_cons, List.map_cons, ih r' hl, ha]

/-- If the witness binds exactly the program's outputs, `public_inputs_values` are the values of the public arguments, then those of
the outputs. -/
theorem publicInputsValues_eq (p : Prog F Z) (args : ArgsInternal p) (w : SMap F) (hw : SMap.Sorted w)
    (outs : ∀ v : Variable, (v : ℤ) < 0 → (v ∈ SMap.keys w ↔ v ∈ p.returns))
    (vals : List F) (h : publicInputsValues p w = some vals) :
    vals.map some = (p.publicInputs ++ p.returns).map (SMap.get w) := by
  have hn : (w.filter fun kv => Variable.isOutput kv.1).length = p.returnCount := by
    have e1 : ((w.filter fun kv => Variable.isOutput kv.1).map Prod.fst).Nodup :=
      List.Nodup.sublist (List.Sublist.map _ List.filter_sublist) (nodup_keys hw)
    have e2 : ((w.filter fun kv => Variable.isOutput kv.1).map Prod.fst).Perm p.returns := by
      have hret : p.returns.Nodup := (List.nodup_append.1 (List.nodup_cons.1 (nodup_public p args)).2).1
      rw [List.perm_ext_iff_of_nodup e1 hret]
      intro v
      rw [List.mem_map]
      constructor
      · rintro ⟨kv, hkv, rfl⟩
        obtain ⟨a, b⟩ := List.mem_filter.1 hkv
        have hneg : (kv.1 : ℤ) < 0 := by simpa [Variable.isOutput] using b
        exact (outs _ hneg).1 (List.mem_map.2 ⟨kv, a, rfl⟩)
      · intro hv
        have hneg : (v : ℤ) < 0 := by
          obtain ⟨i, -, rfl⟩ := List.mem_map.1 hv
          show (-(i : ℤ) - 1) < 0
          omega
        obtain ⟨kv, a, rfl⟩ := List.mem_map.1 ((outs v hneg).2 hv)
        exact ⟨kv, List.mem_filter.2 ⟨a, by simpa [Variable.isOutput] using hneg⟩, rfl⟩
    have := e2.length_eq
    simpa [Prog.returns] using this
  unfold publicInputsValues returnValues at h
  simp only [hn] at h
  split at h
  · rename_i a b ha hb
    cases h
    have hb' := mapM_some _ _ _ hb
    rw [List.map_append, List.map_append, mapM_some _ _ _ ha, hb', Prog.returns, List.map_map]
    rfl
  · cases h

/-- **C36**. If the outputs first occur in order in the constraints, and the witness binds exactly the program's outputs, then the
values that `public_inputs_values` gives to the verifier are those of the public wires, in the same order. -/
theorem C36_public_inputs (p : Prog F Z) (args : ArgsInternal p) (w : SMap F) (hw : SMap.Sorted w)
    (order : firstOccurrences [] ((constraintVars p.statements).filter Variable.isOutput) = p.returns)
    (outs : ∀ v : Variable, (v : ℤ) < 0 → (v ∈ SMap.keys w ↔ v ∈ p.returns))
    (vals : List F) (h : publicInputsValues p w = some vals) :
    (synthesize p w).inputs = (p.publicInputs ++ p.returns).zip (vals.map some) := by
  obtain ⟨h1, -, h3, -⟩ := C36_circuit p args w hw
  rw [order] at h1
  have hvals := publicInputsValues_eq p args w hw outs vals h
  rw [hvals, ← h1]
  generalize hl : (synthesize p w).inputs = l at *
  have h3' : ∀ e ∈ l, e.2 = SMap.get w e.1 := fun e he => h3 e (List.mem_append_left _ he)
  clear hl h1 hvals h3 h
  induction l with
  | nil => rfl
  | cons e l ih =>
    simp only [List.map_cons, List.zip_cons_cons]
    rw [← ih fun e he => h3' e (List.mem_cons_of_mem _ he), ← h3' e List.mem_cons_self]

end

end Zok.Export
