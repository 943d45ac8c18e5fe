import Verif.Props.Whole
import Verif.Props.ReducerExamples
import Verif.Props.AnalysisExamples

/-
A program with a loop and calls of a generic function that meets the hypotheses of `Props/Whole.lean`.
-/

set_option linter.unusedSectionVars false

namespace Zok.Typed
open Abi Dce

/-- The variables of `rdG`. -/
abbrev vx : ZId := num (.basic (nid 0 1 0))
abbrev vy : ZId := num (.basic (nid 0 2 0))
abbrev va0 : ZId := num (.select (.basic (nid 0 3 0)) 0)
abbrev va1 : ZId := num (.select (.basic (nid 0 3 0)) 1)

/-- `rdG` flattened. -/
def rdZ : ZFun (ZMod M127) Unit where
  params := [⟨vx, .field, false⟩, ⟨vy, .field, true⟩]
  returnCount := 1
  body := [
    .definition va0 (.field (.ident vx)),
    .definition va1 (.field (.ident vy)),
    .definition (num (.basic (nid 1 1 0))) (.field (.ident va0)),
    .definition (num (.basic (nid 1 2 0))) (.field (.ident (num (.basic (nid 1 1 0))))),
    .definition (num (.basic (nid 1 2 1))) (.field (.mult (.ident (num (.basic (nid 1 2 0)))) (.ident (num (.basic (nid 1 1 0)))))),
    .definition va0 (.field (.ident (num (.basic (nid 1 2 1))))),
    .definition (num (.basic (nid 2 1 0))) (.field (.ident va1)),
    .definition (num (.basic (nid 2 2 0))) (.field (.ident (num (.basic (nid 2 1 0))))),
    .definition (num (.basic (nid 2 2 1))) (.field (.mult (.ident (num (.basic (nid 2 2 0)))) (.ident (num (.basic (nid 2 1 0)))))),
    .definition va1 (.field (.ident (num (.basic (nid 2 2 1))))),
    .assertion (.fieldEq (.ident va0) (.value 9)) .selectRangeCheck,
    .ret [.field (.ident va1)]]

theorem rdG_propagated : propagateT rdG = .ok rdG := by with_unfolding_all rfl
theorem rdG_analysed : analyseTyped id freshName rdG = some rdG := by with_unfolding_all rfl
theorem rdG_flat : flatFun num rdG = some rdZ := by with_unfolding_all rfl
theorem rdZ_propagated : Prop'.propagate (Pl.noFolder M127 Unit) .sourceAssemblyConstraint rdZ = .ok rdZ := by with_unfolding_all rfl
theorem rdZ_free : ZStmt.OracleFreeL rdZ.body := by simp [rdZ, ZStmt.OracleFreeL, ZStmt.OracleFree]

theorem rdZ_ok : Compilable rdZ where
  typed := by
    have hb : ∃ Γ', WtStmts (TCtx.setAll (fun _ => none) (rdZ.params.map ZParam.id) (rdZ.params.map ZParam.ty)) rdZ.body Γ' := by
      refine ⟨_, .cons (.definition ?_) (.cons (.definition ?_) (.cons (.definition ?_) (.cons (.definition ?_) (.cons (.definition ⟨?_, ?_⟩) (.cons (.definition ?_) (.cons (.definition ?_)
        (.cons (.definition ?_) (.cons (.definition ⟨?_, ?_⟩) (.cons (.definition ?_) (.cons (.assertion ⟨?_, trivial⟩ ?_) (.cons (.ret ?_) .nil)))))))))))⟩
      case refine_14 =>
        intro c hc h
        cases hc
        exact h.elim
      case refine_15 =>
        intro e he
        simp only [List.mem_cons, List.not_mem_nil, or_false] at he
        subst he
        change _ = some _
        decide +kernel
      all_goals
        change _ = some _
        decide +kernel
    obtain ⟨Γ', hb⟩ := hb
    refine ⟨?_, [_, _, _, _, _, _, _, _, _, _, _], _, Γ', rfl, rfl, hb⟩
    intro q hq
    simp only [rdZ, List.mem_cons, List.not_mem_nil, or_false] at hq
    rcases hq with rfl | rfl
    · trivial
    · trivial
  plain := by decide +kernel
  powers := by
    simp [rdZ, ZStmt.ExtractableL, ZStmt.Extractable, ZExpr.NoPowZero, FExpr.NoPowZero, BExpr.NoPowZero]
  apart := by simp [rdZ, ZStmt.BranchesApartL, ZStmt.BranchesApart]
  ret := ⟨[_, _, _, _, _, _, _, _, _, _, _], _, rfl, trivial, trivial, trivial, trivial, trivial, trivial, trivial, trivial, trivial, trivial, trivial, trivial⟩
  noAsm := Pl.noAsmL_of_free _ rdZ_free
  noCast := ⟨trivial, trivial, trivial, trivial, trivial, trivial, trivial, trivial, trivial, trivial, trivial, trivial, trivial⟩

theorem rdF_ok : Reduced id num (Pl.noFolder M127 Unit) .sourceAssemblyConstraint rdP 10 rdF rdZ where
  functions := rdP_wt
  typed := rdF_wt
  reduced := by
    refine ⟨rdG, rdF_reduced, ?_, rdG, rdG, rdZ, rdG_propagated, rdG_analysed, rdG_flat, rdZ_propagated⟩
    simp [rdG, TStmt.InOrder, TAssignee.root, TExpr.vars, varsS, nid]
  compilable := rdZ_ok

theorem rdP_free : rdP.OracleFree := fun _ _ _ _ _ h => absurd (rdP_some h).2.2.2.2 (by simp)

theorem rdF_compiles : ∃ hash P', compileReduced id freshName num (Pl.noFolder M127 Unit) .sourceAssemblyConstraint (Pl.keep M127 Unit) bigSem hash rdP 10 rdF = some (P', false) ∧
    HashOk (Pl.keep M127 Unit) bigSem hash rdZ := by
  obtain ⟨hash, P', h1, h2⟩ := pipe_compiles_of (sem := bigSem) (f := rdZ) (H := Pl.keep M127 Unit) (c := false) (by decide +kernel)
  exact ⟨hash, P', by simpa only [compileReduced, rdF_reduced, compilePropagated, rdG_propagated, compileAnalysed, rdG_analysed, compileTyped, rdG_flat, compileFlattened, rdZ_propagated] using h1, h2⟩

/-- All hypotheses are met: the compiled circuit accepts for `3` and `y` the output `y * y` and nothing else, and executing it returns it; and it accepts nothing for `2`, as
an assertion of the program fails. -/
example (y : ZMod M127) : ∃ hash P', compileReduced id freshName num (Pl.noFolder M127 Unit) .sourceAssemblyConstraint (Pl.keep M127 Unit) bigSem hash rdP 10 rdF = some (P', false) ∧
    ∀ outs, (Realises P' [3, y] outs ↔ outs = [y * y]) ∧ (ExecutesTo bigSem P' [3, y] outs ↔ outs = [y * y]) ∧ ¬ Realises P' [2, y] outs := by
  obtain ⟨hash, P', h1, h2⟩ := rdF_compiles
  refine ⟨hash, P', h1, fun outs => ?_⟩
  have hr := C57_compiled_rejects_partial num_inj id_enumerates (by norm_num) rdF_ok (rdP_unpack _).1 rdZ_free h1 h2 (rdF_fails (Oracle.any M127 Unit) y) outs
  have := C57_compiled_exact_partial num_inj id_enumerates (by norm_num) rdF_ok rdP_free rdZ_free h1 h2 (rdF_returns (Oracle.any M127 Unit) y) outs
  simp only [encode, encodeL, List.append_nil, List.cons_append, List.nil_append] at this hr
  exact ⟨this.1, this.2, hr⟩

end Zok.Typed
