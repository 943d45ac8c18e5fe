import Verif.Props.Complete
import Verif.Props.Optimizer
import Verif.Lemmas.Deterministic
import Verif.Lemmas.FlatPres

/-
C24 and C43: completeness of the compilation of a function, and both directions for the whole back end.
-/

set_option linter.unusedSectionVars false

namespace Zok
variable {p : ℕ} {Z : Type} [Fact p.Prime] {sem : SolverSem (ZMod p) Z} {f : ZFun (ZMod p) Z} {P P' : Prog (ZMod p) Z}
variable [DecidableEq Z] {hash : Stmt (ZMod p) Z → ℕ}

/-! ### C24 -/

/-- **C24**. If the source function returns `outs` on `ins`, with hints computed as the interpreter does, then an honest
prover can satisfy the circuit with these arguments and outputs. -/
theorem C24_honest_prover_partial (hp : 2 < p) (hf : OkFun f) (hs : SingleReturn f) (h : lowerProgram f = some (P, false))
    {ins outs : List (ZMod p)} (hr : Returns (Oracle.honest sem) f ins outs) : HonestlyRealises sem P ins outs :=
  lowered_honest hp hf hs h hr

/-- **C24**. If the source function returns `outs` on `ins`, then executing the circuit on `ins` succeeds and returns
`outs`. -/
theorem C24_execution_partial (hp : 2 < p) (hf : OkFun f) (hs : SingleReturn f) (h : lowerProgram f = some (P, false))
    {ins outs : List (ZMod p)} (hr : Returns (Oracle.honest sem) f ins outs) : ExecutesTo sem P.clean ins outs := by
  obtain ⟨ρ, h1, h2, h3⟩ := lowered_honest hp hf hs h hr
  have := executesTo_of_honest sem (lowered_singleAssignment hf hs h) (ins := ins) (ρ := ρ) h1 (satAll_clean.2 h3)
  rw [← h2]
  exact this

/-- **C24**. Executing the circuit of a function never panics or runs out of scope: it is in single-assignment form. -/
theorem C24_single_assignment (hf : OkFun f) (hs : SingleReturn f) {cl : Bool} (h : lowerProgram f = some (P, cl)) :
    SingleAssignment P.clean := lowered_singleAssignment hf hs h

theorem compileZir_some {cl : Bool} (h : compileZir sem hash f = some (P', cl)) :
    ∃ P Q, lowerProgram f = some (P, cl) ∧ optimize sem hash P = some Q ∧ P' = Q.clean := by
  unfold compileZir at h
  split at h
  · cases h
  · rename_i P c h1
    split at h
    · cases h
    · rename_i Q h2
      cases h
      exact ⟨P, Q, h1, h2, rfl⟩

theorem realises_clean {ins outs : List (ZMod p)} : Realises P.clean ins outs ↔ Realises P ins outs := by
  unfold Realises Prog.clean
  simp only [satAll_clean]
  rfl

/-- The optimiser removes all blocks. -/
theorem optimize_leaf (h : optimize sem hash P = some P') : ∀ s ∈ P'.statements, s.IsLeaf := by
  obtain ⟨st', out, he, rfl⟩ := optimize_some sem h
  intro s hs
  exact Stmt.isLeaf_of_clean s ((C12_dropped_has_kept_twin hash _).1 s hs)

theorem optimize_clean (h : optimize sem hash P = some P') : P'.clean = P' := by
  unfold Prog.clean
  rw [Stmt.cleanL_leaf (optimize_leaf h)]

/-- The optimiser keeps the outputs of directives distinct from each other and from arguments and outputs. -/
theorem optimize_fresh (hP : SingleAssignment P) (h : optimize sem hash P = some P') :
    DirectivesFresh (protectedVars P.arguments P.returnCount) P'.statements := by
  obtain ⟨st', out, he, rfl⟩ := optimize_some sem h
  have hclean := Stmt.cleanL_leaf (wellScoped_leaf hP.wellScoped)
  have f2 : DirectivesFresh (protectedVars P.arguments P.returnCount) (Stmt.cleanL out) :=
    fresh_after_redef sem he (firstUse_of_singleAssignment sem hP) (by rw [hclean]; exact hP.fresh)
  have f3 := fresh_after_canon f2
  have f4 : DirectivesFresh (protectedVars P.arguments P.returnCount)
      (Stmt.cleanL (dirStmts ⟨[], []⟩ (canonStmts (tautStmts out))).2) := by
    rw [(dirStmts_flat _ _).2]
    exact dir_fresh Stmt.isLeaf_of_clean (dirInv_init _) (fun _ h => h) f3
  show DirectivesFresh _ (dupStmts hash [] _).2
  rw [dupStmts_flat]
  exact dup_fresh (fun _ h => h) f4

/-- A successful execution of a program gives an assignment that satisfies it. -/
theorem realises_of_executes (ha : ArgsDistinct P.arguments) (hf : DirectivesFresh (initialVars P.arguments) P.statements)
    {ins outs : List (ZMod p)} (h : ExecutesTo sem P ins outs) : Realises P ins outs := by
  obtain ⟨w, hw, ho⟩ := h
  obtain ⟨h1, h2, h3⟩ := C01_witness_satisfies sem false ins P.statements P.arguments P.solvers w ha hf hw
  have gen : ∀ {l : List (Option (ZMod p))} {xs : List (ZMod p)}, l = xs.map some → l.map (fun o => o.getD 0) = xs := by
    rintro l xs rfl
    rw [List.map_map]
    conv_rhs => rw [← List.map_id xs]
    exact List.map_congr_left fun _ _ => rfl
  refine ⟨assignmentOf w, by simp [assignmentOf, h1], ?_, ?_, h3⟩
  · have := gen h2
    rw [List.map_map] at this
    exact this
  · have := gen ho
    rw [List.map_map] at this
    exact this

/-! ### C43 -/

theorem lowered_singleAssignment' (hf : OkFun f) (hs : SingleReturn f) {cl : Bool} (h : lowerProgram f = some (P, cl))
    (hb : ZStmt.NoAsmL f.body) : SingleAssignment P := by
  have h1 := lowered_singleAssignment hf hs h
  rw [Stmt.cleanL_leaf (lower_leaf hb h)] at h1
  exact h1

/-- **C43** (soundness). Whatever satisfies the compiled circuit is an execution of the source function, unless the
execution divides field elements by zero or uses a field element other than 0 and 1 as a boolean. -/
theorem C43_sound_partial (hp : 2 < p) (hf : OkFun f) (hs : SingleReturn f) (hb : ZStmt.NoAsmL f.body)
    (h : compileZir sem hash f = some (P', false))
    (hh : ∀ P cl, lowerProgram f = some (P, cl) → HashSeparatesRun sem hash P)
    {ins outs : List (ZMod p)} (hr : Realises P' ins outs) :
    Returns (Oracle.any p Z) f ins outs ∨ ∃ e, Undetected e ∧ Faults (Oracle.any p Z) f ins e := by
  obtain ⟨P, Q, h1, h2, rfl⟩ := compileZir_some h
  rw [realises_clean] at hr
  exact C23_lowered_sound_partial hp hf h1 ins outs
    (C13_sound sem (lowered_singleAssignment' hf hs h1 hb) h2 (hh P _ h1) ins outs hr)

/-- **C43** (completeness). If the source function returns `outs` on `ins`, with hints computed as the interpreter does,
then an honest prover can satisfy the compiled circuit with these arguments and outputs: for every function, with or
without `asm` blocks, and every hash function of the optimiser. -/
theorem C43_complete_partial (hp : 2 < p) (hf : OkFun f) (hs : SingleReturn f)
    (h : compileZir sem hash f = some (P', false)) {ins outs : List (ZMod p)}
    (hr : Returns (Oracle.honest sem) f ins outs) : HonestlyRealises sem P' ins outs := by
  obtain ⟨P, Q, h1, h2, rfl⟩ := compileZir_some h
  rw [optimize_clean h2]
  exact C13_complete sem h2 ins outs (lowered_honest hp hf hs h1 hr)

/-- **C43** (execution). If the source function returns `outs` on `ins`, then executing the compiled circuit on `ins`
succeeds, and returns `outs`. -/
theorem C43_execution_complete_partial (hp : 2 < p) (hf : OkFun f) (hs : SingleReturn f) (hb : ZStmt.NoAsmL f.body)
    (h : compileZir sem hash f = some (P', false))
    (hh : ∀ P cl, lowerProgram f = some (P, cl) → HashSeparatesRun sem hash P)
    {ins outs : List (ZMod p)} (hr : Returns (Oracle.honest sem) f ins outs) : ExecutesTo sem P' ins outs := by
  obtain ⟨P, Q, h1, h2, rfl⟩ := compileZir_some h
  rw [optimize_clean h2]
  obtain ⟨ρ, g1, g2, g3⟩ := lowered_honest hp hf hs h1 hr
  have hsa := lowered_singleAssignment' hf hs h1 hb
  obtain ⟨k1, k2⟩ := optimize_honest sem h2 g1 g3
  rw [Stmt.cleanL_leaf (optimize_leaf h2)] at k1
  rw [Stmt.cleanL_leaf (lower_leaf hb h1)] at g1
  have := executesTo_of_honest sem (optimize_scoped sem hsa h2 (hh P _ h1) g1 g3) k1 k2
  have hret : Q.returns = P.returns := by obtain ⟨_, _, _, rfl⟩ := optimize_some sem h2; rfl
  rw [hret, g2] at this
  exact this

/-- **C43** (execution). If executing the compiled circuit on `ins` succeeds with `outs`, then so does the source function,
up to the exceptions of `C43_sound_partial`. -/
theorem C43_execution_sound_partial (hp : 2 < p) (hf : OkFun f) (hs : SingleReturn f) (hb : ZStmt.NoAsmL f.body)
    (h : compileZir sem hash f = some (P', false))
    (hh : ∀ P cl, lowerProgram f = some (P, cl) → HashSeparatesRun sem hash P)
    {ins outs : List (ZMod p)} (hr : ExecutesTo sem P' ins outs) :
    Returns (Oracle.any p Z) f ins outs ∨ ∃ e, Undetected e ∧ Faults (Oracle.any p Z) f ins e := by
  refine C43_sound_partial hp hf hs hb h hh ?_
  obtain ⟨P, Q, h1, h2, rfl⟩ := compileZir_some h
  have hsa := lowered_singleAssignment' hf hs h1 hb
  rw [optimize_clean h2] at hr ⊢
  have hfr := optimize_fresh hsa h2
  have hargs : Q.arguments = P.arguments := by obtain ⟨_, _, _, rfl⟩ := optimize_some sem h2; rfl
  refine realises_of_executes (sem := sem) (by rw [hargs]; exact hsa.args) ?_ hr
  rw [hargs]
  exact hfr.mono initial_sub_protected

/-- **C43**. For a function which leaves no choice to the prover, and arguments on which it neither divides field elements
by zero nor uses a field element other than 0 and 1 as a boolean: the compiled circuit can be satisfied with arguments
`ins` and outputs `outs` if and only if the source function returns `outs` on `ins`; and so can the circuit be executed. -/
theorem C43_iff_partial (hp : 2 < p) (hf : OkFun f) (hs : SingleReturn f) (hb : ZStmt.NoAsmL f.body)
    (ho : ZStmt.OracleFreeL f.body) (h : compileZir sem hash f = some (P', false))
    (hh : ∀ P cl, lowerProgram f = some (P, cl) → HashSeparatesRun sem hash P) {O : Oracle p Z}
    {ins outs : List (ZMod p)} (hu : ∀ e, Undetected e → ¬ Faults (Oracle.any p Z) f ins e) :
    (Realises P' ins outs ↔ Returns O f ins outs) ∧ (ExecutesTo sem P' ins outs ↔ Returns O f ins outs) := by
  refine ⟨⟨fun hr => ?_, fun hr => ?_⟩, ⟨fun hr => ?_, fun hr => ?_⟩⟩
  · rcases C43_sound_partial hp hf hs hb h hh hr with h1 | ⟨e, h1, h2⟩
    · exact h1.anyOracle ho
    · exact absurd h2 (hu e h1)
  · obtain ⟨ρ, g1, g2, g3⟩ := C43_complete_partial hp hf hs h (hr.anyOracle (O' := Oracle.honest sem) ho)
    exact ⟨ρ, g1.one, g1.args, g2, g3⟩
  · rcases C43_execution_sound_partial hp hf hs hb h hh hr with h1 | ⟨e, h1, h2⟩
    · exact h1.anyOracle ho
    · exact absurd h2 (hu e h1)
  · exact C43_execution_complete_partial hp hf hs hb h hh (hr.anyOracle ho)

/-- **C43** (determinism). If the source function, which leaves no choice to the prover, returns `outs` on `ins`, then no
assignment which satisfies the compiled circuit with arguments `ins` has other outputs. -/
theorem C43_unique_partial (hp : 2 < p) (hf : OkFun f) (hs : SingleReturn f) (hb : ZStmt.NoAsmL f.body)
    (ho : ZStmt.OracleFreeL f.body) (h : compileZir sem hash f = some (P', false))
    (hh : ∀ P cl, lowerProgram f = some (P, cl) → HashSeparatesRun sem hash P) {O : Oracle p Z}
    {ins outs outs' : List (ZMod p)} (hr : Returns O f ins outs) (hr' : Realises P' ins outs') : outs' = outs := by
  rcases C43_sound_partial hp hf hs hb h hh hr' with h1 | ⟨e, h1, h2⟩
  · exact h1.unique ho hr
  · exact absurd h2 (hr.not_faults ho)

end Zok
