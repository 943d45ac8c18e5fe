import Verif.Lemmas.PipelineProp
import Verif.Lemmas.AssertFails

/-
C47: all passes over ZIR and the back end together. `compilePropagated` are the passes behind the propagation, `compileFlattened`
includes it. `f` is a function without assembly blocks.
-/

set_option linter.unusedSectionVars false

namespace Zok
open Pl
variable {p : ℕ} {Z : Type} [Fact p.Prime] {sem : SolverSem (ZMod p) Z} {f f' : ZFun (ZMod p) Z} {P' : Prog (ZMod p) Z}
variable [DecidableEq Z] {hash : Stmt (ZMod p) Z → ℕ} {H : HintPasses p Z}

/-- The hash function tells apart the constraints which the duplicate optimiser compares when it compiles `f`. -/
def HashOk (H : HintPasses p Z) (sem : SolverSem (ZMod p) Z) (hash : Stmt (ZMod p) Z → ℕ) (f : ZFun (ZMod p) Z) : Prop :=
  ∀ g P cl, analyseZir H f = some g → lowerProgram g = some (P, cl) → HashSeparatesRun sem hash P

/-- **C47** (no error). The passes neither panic nor report an error, and what they make of hints does not matter. -/
theorem C47_analysis_succeeds (hp : 2 < p) (hf : Compilable f) : ∃ g, ∀ H : HintPasses p Z, analyseZir H f = some g := by
  obtain ⟨g, h, _⟩ := analyse_ok (H := keep p Z) hp hf
  exact ⟨g, fun H => by rw [analyse_hints hf, h]⟩

theorem compilePropagated_some (hp : 2 < p) (hf : Compilable f) (h : compilePropagated H sem hash f = some (P', false)) :
    ∃ g, analyseZir H f = some g ∧ Analysed f g ∧ compileZir sem hash g = some (P', false) := by
  obtain ⟨g, h1, h2⟩ := analyse_ok (H := H) hp hf
  refine ⟨g, h1, h2, ?_⟩
  simpa only [compilePropagated, h1] using h

/-- **C47** (soundness). Whatever satisfies the compiled circuit is an execution of the source function, except on arguments on which the
source function can fail. Field elements are only unpacked into at least as many bits as the modulus has. -/
theorem C47_sound_partial (hp : 2 < p) (hf : Compilable f) (hw : ZStmt.WideUnpackL f.body)
    (h : compilePropagated H sem hash f = some (P', false)) (hh : HashOk H sem hash f) {ins outs : List (ZMod p)} (hr : Realises P' ins outs) :
    Returns (Oracle.any p Z) f ins outs ∨ ∃ e, Faults (Oracle.any p Z) f ins e := by
  obtain ⟨g, h1, A, h2⟩ := compilePropagated_some hp hf h
  rcases C43_sound_partial hp A.ok A.ret A.noAsm h2 (fun P cl => hh g P cl h1) hr with h3 | ⟨e, h3, h4⟩
  · exact A.back _ _ _ (callsOk_extracted hf hw) h3
  · exact absurd h4 (A.detected _ _ _ h3)

/-- **C47** (failures are rejected). No assignment satisfies the compiled circuit with arguments on which the source function divides a field
element by zero, or fails anywhere but in the right side of a definition: in particular arguments on which an assertion fails. The function leaves
no choice to the prover. -/
theorem C47_failures_rejected_partial (hp : 2 < p) (hf : Compilable f) (ho : ZStmt.OracleFreeL f.body)
    (h : compilePropagated H sem hash f = some (P', false)) (hh : HashOk H sem hash f) {O : Oracle p Z} {ins : List (ZMod p)}
    (hr : Faults O f ins .divZero ∨ ∃ e vs, decodeArgs f.params ins = some vs ∧ FailsOutsideL O (initState f vs) f.body e)
    (outs : List (ZMod p)) : ¬ Realises P' ins outs := by
  intro hr'
  obtain ⟨g, h1, A, h2⟩ := compilePropagated_some hp hf h
  rcases C43_sound_partial hp A.ok A.ret A.noAsm h2 (fun P cl => hh g P cl h1) hr' with h3 | ⟨e, h3, h4⟩
  · obtain ⟨e, h5⟩ : ∃ e, Faults O g ins e := by
      rcases hr with h5 | h5
      · exact A.div O ins h5
      · exact A.outside O ins h5
    exact h3.not_faults (A.free ho) h5
  · exact A.detected _ _ _ h3 h4

/-- **C47** (completeness). If the source function returns `outs` on `ins`, with field elements unpacked as the interpreter does, then an honest
prover can satisfy the compiled circuit with these arguments and outputs. -/
theorem C47_complete_partial (hp : 2 < p) (hf : Compilable f) (h : compilePropagated H sem hash f = some (P', false)) {ins outs : List (ZMod p)}
    (hr : Returns (Oracle.honest sem) f ins outs) : HonestlyRealises sem P' ins outs := by
  obtain ⟨g, h1, A, h2⟩ := compilePropagated_some hp hf h
  exact C43_complete_partial hp A.ok A.ret h2 (A.fwd _ _ _ hr)

/-- **C47** (execution). If the source function returns `outs` on `ins`, then executing the compiled circuit on `ins` succeeds, and returns
`outs`. -/
theorem C47_execution_partial (hp : 2 < p) (hf : Compilable f) (h : compilePropagated H sem hash f = some (P', false)) (hh : HashOk H sem hash f)
    {ins outs : List (ZMod p)} (hr : Returns (Oracle.honest sem) f ins outs) : ExecutesTo sem P' ins outs := by
  obtain ⟨g, h1, A, h2⟩ := compilePropagated_some hp hf h
  exact C43_execution_complete_partial hp A.ok A.ret A.noAsm h2 (fun P cl => hh g P cl h1) (A.fwd _ _ _ hr)

/-- **C47** (equivalence). For a function which leaves no choice to the prover, and arguments on which it does not fail: the compiled circuit
can be satisfied with arguments `ins` and outputs `outs` if and only if the source function returns `outs` on `ins`; and executing it returns
`outs` if and only if the source function does. -/
theorem C47_iff_partial (hp : 2 < p) (hf : Compilable f) (ho : ZStmt.OracleFreeL f.body)
    (h : compilePropagated H sem hash f = some (P', false)) (hh : HashOk H sem hash f) {O : Oracle p Z} {ins outs : List (ZMod p)}
    (hn : ∀ e, ¬ Faults O f ins e) : (Realises P' ins outs ↔ Returns O f ins outs) ∧ (ExecutesTo sem P' ins outs ↔ Returns O f ins outs) := by
  obtain ⟨g, h1, A, h2⟩ := compilePropagated_some hp hf h
  have hg := C43_iff_partial hp A.ok A.ret A.noAsm (A.free ho) h2 (fun P cl => hh g P cl h1) (O := O) (ins := ins) (outs := outs)
    (fun e he => A.detected _ ins e he)
  have hb : Returns O g ins outs ↔ Returns O f ins outs := by
    refine ⟨fun hr => ?_, A.fwd O ins outs⟩
    rcases A.back O ins outs (callsOk_extracted_free hf ho O) hr with h3 | ⟨e, h3⟩
    · exact h3
    · exact absurd h3 (hn e)
  rw [hb] at hg
  exact hg

/-- **C47** (determinism). If the source function, which leaves no choice to the prover, returns `outs` on `ins`, then no assignment which
satisfies the compiled circuit with arguments `ins` has other outputs. -/
theorem C47_unique_partial (hp : 2 < p) (hf : Compilable f) (ho : ZStmt.OracleFreeL f.body)
    (h : compilePropagated H sem hash f = some (P', false)) (hh : HashOk H sem hash f) {O : Oracle p Z} {ins outs outs' : List (ZMod p)}
    (hr : Returns O f ins outs) (hr' : Realises P' ins outs') : outs' = outs := by
  have := ((C47_iff_partial (O := O) hp hf ho h hh (fun e => hr.not_faults ho)).1).1 hr'
  exact this.unique ho hr

/-! ### With propagation in front -/

section
variable {HF : Prop'.HintFolder p Z} {err : String → RuntimeError} {ar : Z → ℕ}

theorem compileFlattened_some (h1 : Prop'.propagate HF err f = .ok f') (h : compileFlattened HF err H sem hash f = some (P', false)) :
    compilePropagated H sem hash f' = some (P', false) := by
  simpa only [compileFlattened, h1] using h

/-- **C47** (soundness, with propagation). As `C47_sound_partial`, for the source function in front of the propagation: the conditions on the syntax are
on the propagated function `f'`. -/
theorem C47_flattened_sound_partial (hp : 2 < p) (hb : ZStmt.NoAsmL f.body) (ht : TyFun ar f) (hpr : Prop'.propagate HF err f = .ok f')
    (hf : Compilable f') (hw : ZStmt.WideUnpackL f'.body) (h : compileFlattened HF err H sem hash f = some (P', false))
    (hh : HashOk H sem hash f') {ins outs : List (ZMod p)} (hr : Realises P' ins outs) :
    Returns (Oracle.any p Z) f ins outs ∨ ∃ e, Faults (Oracle.any p Z) f ins e := by
  have hb' := hf.noAsm
  obtain ⟨k1, k2⟩ := prop_back hb ht hpr (Oracle.any p Z) ins
  rcases C47_sound_partial hp hf hw (compileFlattened_some hpr h) hh hr with h1 | ⟨e, h1⟩
  · exact k1 outs (returns_congr (O := Oracle.any p Z) (O' := noHints (Oracle.any p Z)) rfl hb' h1)
  · obtain ⟨e', h2⟩ := k2 e (faults_congr (O := Oracle.any p Z) (O' := noHints (Oracle.any p Z)) rfl hb' h1)
    exact Or.inr ⟨e', h2⟩

/-- **C47** (completeness, with propagation). -/
theorem C47_flattened_complete_partial (hp : 2 < p) (hb : ZStmt.NoAsmL f.body) (ht : TyFun ar f) (hpr : Prop'.propagate HF err f = .ok f')
    (hf : Compilable f') (h : compileFlattened HF err H sem hash f = some (P', false))
    (hh : HashOk H sem hash f') {ins outs : List (ZMod p)} (hr : Returns (Oracle.honest sem) f ins outs) :
    HonestlyRealises sem P' ins outs ∧ ExecutesTo sem P' ins outs := by
  obtain ⟨f'', h1, h2⟩ := prop_fwd (H := HF) (err := err) hb ht hr
  rw [hpr] at h1
  cases h1
  have h3 : Returns (Oracle.honest sem) f' ins outs := returns_congr (O := noHints (Oracle.honest sem)) (O' := Oracle.honest sem) rfl hf.noAsm h2
  exact ⟨C47_complete_partial hp hf (compileFlattened_some hpr h) h3, C47_execution_partial hp hf (compileFlattened_some hpr h) hh h3⟩

/-- **C47** (assertions are enforced, with propagation). No assignment satisfies the compiled circuit with arguments on which an assertion of the
source function fails. -/
theorem C47_flattened_rejects_partial (hp : 2 < p) (hb : ZStmt.NoAsmL f.body) (ht : TyFun ar f) (hpr : Prop'.propagate HF err f = .ok f')
    (hf : Compilable f') (ho : ZStmt.OracleFreeL f'.body) (h : compileFlattened HF err H sem hash f = some (P', false))
    (hh : HashOk H sem hash f') {O : Oracle p Z} {ins : List (ZMod p)} (ha : AssertFails O f ins) (outs : List (ZMod p)) : ¬ Realises P' ins outs :=
  C47_failures_rejected_partial hp hf ho (compileFlattened_some hpr h) hh (.inr (ha.propagate hb ht hpr).outside) outs

/-- **C47** (equivalence, with propagation). -/
theorem C47_flattened_iff_partial (hp : 2 < p) (hb : ZStmt.OracleFreeL f.body) (ht : TyFun ar f) (hpr : Prop'.propagate HF err f = .ok f')
    (hf : Compilable f') (ho : ZStmt.OracleFreeL f'.body) (h : compileFlattened HF err H sem hash f = some (P', false))
    (hh : HashOk H sem hash f') {O : Oracle p Z} {ins outs : List (ZMod p)} (hn : ∀ e, ¬ Faults O f ins e) :
    (Realises P' ins outs ↔ Returns O f ins outs) ∧ (ExecutesTo sem P' ins outs ↔ Returns O f ins outs) := by
  have hb' := noAsmL_of_free f.body hb
  obtain ⟨k1, k2⟩ := prop_back hb' ht hpr O ins
  have hn' : ∀ e, ¬ Faults (noHints O) f' ins e := fun e he => by
    obtain ⟨e', h1⟩ := k2 e he
    exact hn e' h1
  have hg := C47_iff_partial hp hf ho (compileFlattened_some hpr h) hh (outs := outs) hn'
  have hr : Returns (noHints O) f' ins outs ↔ Returns O f ins outs := by
    refine ⟨fun hr => ?_, fun hr => ?_⟩
    · rcases k1 outs hr with h3 | ⟨e, h3⟩
      · exact h3
      · exact absurd h3 (hn e)
    · obtain ⟨f'', h1, h2⟩ := prop_fwd (H := HF) (err := err) hb' ht hr
      rw [hpr] at h1
      cases h1
      exact h2
  rw [hr] at hg
  exact hg
end

end Zok
