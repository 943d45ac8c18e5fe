import Verif.Props.Pipeline
import Verif.Props.EndToEndExamples
import Verif.Props.DeadCodeExamples

/-
A program that meets the hypotheses of `Props/Pipeline.lean`, from the input of the propagation to the circuit.
-/

set_option linter.unusedSectionVars false

namespace Zok
open Pl Dce

/-- ```
def main(field x, field y, u2 u) -> (field, u2) {
    field z = 3 * 5 + x;
    field a = x / y;  // not used
    u2 v = u + u;
    assert(!(z == 5));
    return z * y, v + u;
}
``` -/
def pipeF : ZFun (ZMod 97) Unit where
  params := [⟨0, .field, true⟩, ⟨1, .field, true⟩, ⟨2, .uint 2, true⟩]
  returnCount := 2
  body := [
    .definition 3 (.field (.add (.mult (.value 3) (.value 5)) (.ident 0))),
    .definition 4 (.field (.div (.ident 0) (.ident 1))),
    .definition 5 (.uint (.mk 2 none (.add (.mk 2 none (.ident 2)) (.mk 2 none (.ident 2))))),
    .assertion (.not (.fieldEq (.ident 3) (.value 5))) (.sourceAssertion ""),
    .ret [.field (.mult (.ident 3) (.ident 1)), .uint (.mk 2 none (.add (.mk 2 none (.ident 5)) (.mk 2 none (.ident 2))))]]

/-- `pipeF` after propagation. -/
def pipeF' : ZFun (ZMod 97) Unit := { pipeF with body := [
    .definition 3 (.field (.add (.value 15) (.ident 0))),
    .definition 4 (.field (.div (.ident 0) (.ident 1))),
    .definition 5 (.uint (.mk 2 none (.add (.mk 2 none (.ident 2)) (.mk 2 none (.ident 2))))),
    .assertion (.not (.fieldEq (.ident 3) (.value 5))) (.sourceAssertion ""),
    .ret [.field (.mult (.ident 3) (.ident 1)), .uint (.mk 2 none (.add (.mk 2 none (.ident 5)) (.mk 2 none (.ident 2))))]] }

theorem pipeF_propagated : Prop'.propagate (noFolder 97 Unit) .sourceAssemblyConstraint pipeF = .ok pipeF' := by with_unfolding_all rfl

theorem pipeF_ty : TyFun (fun _ => 0) pipeF := by
  simp [TyFun, pipeF, TyStmts, TyStmt, TyZ, TyF, TyB, TyU, TyUI, UExpr.width]

theorem pipeF_free : ZStmt.OracleFreeL pipeF.body := ⟨trivial, trivial, trivial, trivial, trivial, trivial⟩
theorem pipeF'_free : ZStmt.OracleFreeL pipeF'.body := ⟨trivial, trivial, trivial, trivial, trivial, trivial⟩

theorem pipeF'_ok : Compilable pipeF' where
  typed := by
    have hw : WidthOk 97 2 := ⟨by norm_num, by decide +kernel⟩
    have hb : ∃ Γ', WtStmts (TCtx.setAll (fun _ => none) (pipeF'.params.map ZParam.id) (pipeF'.params.map ZParam.ty)) pipeF'.body Γ' := by
      refine ⟨_, .cons (.definition ?_) (.cons (.definition ?_) (.cons (.definition ?_) (.cons (.assertion ?_ ?_) (.cons (.ret ?_) .nil))))⟩
      · exact ⟨trivial, rfl⟩
      · exact ⟨rfl, rfl⟩
      · exact ⟨rfl, hw, ⟨rfl, hw, rfl⟩, ⟨rfl, hw, rfl⟩, rfl, rfl⟩
      · exact ⟨rfl, trivial⟩
      · intro c hc h
        exact Px.conj_not hc h
      · intro e he
        simp only [List.mem_cons, List.not_mem_nil, or_false] at he
        rcases he with rfl | rfl
        · exact ⟨rfl, rfl⟩
        · exact ⟨rfl, hw, ⟨rfl, hw, rfl⟩, ⟨rfl, hw, rfl⟩, rfl, rfl⟩
    obtain ⟨Γ', hb⟩ := hb
    refine ⟨?_, [_, _, _, _], _, Γ', rfl, rfl, hb⟩
    intro q hq
    simp only [pipeF', pipeF, List.mem_cons, List.not_mem_nil, or_false] at hq
    rcases hq with rfl | rfl | rfl
    · trivial
    · trivial
    · exact hw
  plain := by decide +kernel
  powers := by
    simp [pipeF', ZStmt.ExtractableL, ZStmt.Extractable, ZExpr.NoPowZero, FExpr.NoPowZero, BExpr.NoPowZero, UExpr.NoPowZero, UInner.NoPowZero]
  apart := by simp [pipeF', ZStmt.BranchesApartL, ZStmt.BranchesApart]
  ret := ⟨[_, _, _, _], _, rfl, trivial, trivial, trivial, trivial, trivial⟩
  noAsm := noAsmL_of_free _ pipeF'_free
  noCast := ⟨trivial, trivial, trivial, trivial, trivial, trivial⟩

/-- A function that can be analysed, lowered and optimised is compiled, for some hash function which separates its statements. -/
theorem pipe_compiles_of {p : ℕ} [Fact p.Prime] {sem : SolverSem (ZMod p) Unit} {f : ZFun (ZMod p) Unit} {H : HintPasses p Unit} {c : Bool}
    (h : ((analyseZir H f).bind fun g => (lowerProgram g).map fun t => (t.2, (redefStmts sem false
      (redefInit t.1.arguments t.1.returnCount) t.1.statements).isSome)) = some (c, true)) :
    ∃ hash P', compilePropagated H sem hash f = some (P', c) ∧ HashOk H sem hash f := by
  cases hg : analyseZir H f with
  | none => rw [hg] at h; cases h
  | some g =>
    rw [hg, Option.bind_some] at h
    obtain ⟨hash, P', h1, h2⟩ := compiles_of h
    refine ⟨hash, P', ?_, fun g' P cl hg' => ?_⟩
    · simp only [compilePropagated, hg, h1]
    · rw [hg] at hg'
      cases hg'
      exact h2 P cl

theorem pipeF'_compiles : ∃ hash P', compilePropagated (keep 97 Unit) exSem hash pipeF' = some (P', false) ∧
    HashOk (keep 97 Unit) exSem hash pipeF' := pipe_compiles_of (by decide +kernel)

/-- The source function returns 36 and 1 on 3, 2 and 3. -/
theorem pipeF_returns (O : Oracle 97 Unit) : Returns O pipeF [3, 2, 3] [36, 1] := by
  refine ⟨[.field 3, .field 2, .uint 2 3], _, [.field 36, .uint 2 1], by decide +kernel,
    .cons (.definition (v := .field 18) (by decide +kernel)) (.cons (.definition (v := .field 50) (by decide +kernel))
    (.cons (.definition (v := .uint 2 2) (by decide +kernel)) (.cons (.assertOk (by decide +kernel))
      (.cons (.ret (vs := [.field 36, .uint 2 1]) (by decide +kernel)) .nil)))), rfl, by decide +kernel⟩

/-- All hypotheses are met: the compiled circuit accepts exactly the outputs 36 and 1 on 3, 2 and 3, and executing it returns them. -/
example : ∃ hash P', compileFlattened (noFolder 97 Unit) .sourceAssemblyConstraint (keep 97 Unit) exSem hash pipeF = some (P', false) ∧
    (∀ outs, Realises P' [3, 2, 3] outs ↔ outs = [36, 1]) ∧ ExecutesTo exSem P' [3, 2, 3] [36, 1] := by
  obtain ⟨hash, P', h1, h2⟩ := pipeF'_compiles
  have hc : compileFlattened (noFolder 97 Unit) .sourceAssemblyConstraint (keep 97 Unit) exSem hash pipeF = some (P', false) := by
    simpa only [compileFlattened, pipeF_propagated] using h1
  have hr := pipeF_returns (Oracle.any 97 Unit)
  have hi := fun outs => C47_flattened_iff_partial (O := Oracle.any 97 Unit) (by norm_num) pipeF_free pipeF_ty pipeF_propagated pipeF'_ok pipeF'_free hc h2 (outs := outs)
    (fun e => hr.not_faults pipeF_free (e := e))
  refine ⟨hash, P', hc, fun outs => ?_, ((hi _).2).2 hr⟩
  rw [(hi outs).1]
  exact ⟨fun h => h.unique pipeF_free hr, fun h => h ▸ hr⟩

/-- The division by zero is rejected, although the quotient is not used; so is the assertion that fails. -/
example : ∃ hash P', compilePropagated (keep 97 Unit) exSem hash pipeF' = some (P', false) ∧
    ∀ outs, ¬ Realises P' [3, 0, 3] outs ∧ ¬ Realises P' [87, 2, 3] outs := by
  obtain ⟨hash, P', h1, h2⟩ := pipeF'_compiles
  refine ⟨hash, P', h1, fun outs => ⟨?_, ?_⟩⟩
  · refine C47_failures_rejected_partial (O := Oracle.any 97 Unit) (by norm_num) pipeF'_ok pipeF'_free h1 h2 (Or.inl ?_) outs
    exact ⟨[.field 3, .field 0, .uint 2 3], by decide +kernel, .cons (.definition (v := .field 18) (by decide +kernel))
      (.fault (.definitionFault (by decide +kernel)))⟩
  · refine C47_failures_rejected_partial (O := Oracle.any 97 Unit) (by norm_num) pipeF'_ok pipeF'_free h1 h2 (Or.inr
      ⟨.assertionFailed, [.field 87, .field 2, .uint 2 3], by decide +kernel, ?_⟩) outs
    exact .tail (.definition (v := .field 5) (by decide +kernel)) (.tail (.definition (v := .field 92) (by decide +kernel))
      (.tail (.definition (v := .uint 2 2) (by decide +kernel)) (.head (.assertFailed (by decide +kernel)))))

end Zok
