import Verif.Props.AnalysisFull
import Verif.Props.AnalysisExamples

/-
A function that meets the hypotheses of `Props/AnalysisFull.lean`.
-/

set_option linter.unusedSectionVars false

namespace Zok.Typed
open Abi Dce

/-- ```
def main(field[2] mut a, u32 i, field x) -> field[2] {
    assert([1, 2] == [1, ...[2; 1]]);
    a[i] = 1 + 1 == 2 ? x : 0;
    return a;
}
``` -/
def fullF : TFun (ZMod M127) where
  params := dynW.params
  ret := .array 2 .field
  body := [
    .assertion (.eq (.array .field 2 [.expr (.fval 1), .expr (.fval 2)]) (.array .field 2 [.expr (.fval 1), .spread (.repeat_ .field 1 (.fval 2) (.uval .b32 1))])) .selectRangeCheck,
    .definition (.select (.ident 0 (.array 2 .field)) (.ident 1 (.uint .b32)))
      (.cond .field (.eq (.fbin .add (.fval 1) (.fval 1)) (.fval 2)) (.ident 2 .field) (.fval 0)), .ret (.ident 0 (.array 2 .field))]

theorem fullF_propagated : propagateT fullF = .ok dynW := by with_unfolding_all rfl

theorem fullF_free : ∀ s ∈ fullF.body, s.OracleFree := by simp [fullF, TStmt.OracleFree]

theorem fullF_ok : Propagated id dynC num (Pl.noFolder M127 Unit) .sourceAssemblyConstraint fullF dynG where
  typed := by
    refine ⟨dynW_wt.params, dynW_wt.ret, ?_⟩
    simp [fullF, TStmt.Wt, TAssignee.Wt, TExpr.Wt, WtS, spreadCount, TAssignee.ty, TExpr.ty, TypeOk, CType.Distinct, CType.Small, SmallL, SmallM, primCount, UW.bits]
  args := by simp [fullF, TStmt.ArgsTyped]
  inOrder := by simp [fullF, TStmt.InOrder, TAssignee.root, TExpr.vars]
  fresh := by simp [fullF, FreshCalls]
  calls := by simp [fullF, ConstantCalls]
  names := by
    intro x hx k h
    have hall : ∀ x ∈ fullF.vars, @LT.lt ℕ _ x 3 := by decide +kernel
    have hlt := hall x hx
    change @Eq ℕ x (k + 3) at h
    omega
  propagated := ⟨dynW, dynA, dynG, fullF_propagated, dynW_analysed, dynA_flat, dynG_propagated⟩
  compilable := dynG_ok

theorem fullF_returns (O : Oracle M127 Unit) (a b x : ZMod M127) : ReturnsT O fullF (dynArgs a b 1 x) (.array [.field a, .field x]) := by
  have h1 : ∀ env : TEnv M127, evalT env (.eq (.fbin .add (.fval 1) (.fval 1)) (.fval 2)) = .ok (.bool true) := fun env => by
    have h : (1 : ZMod M127) + 1 = 2 := by decide +kernel
    simp [evalT, FOp.eval, asField, bind, Except.bind, h]
  refine ⟨by simp [fullF, dynW, dynArgs, HasTypeL, HasType, UW.bits], _, .cons (.assertOk ?_)
    (.cons (.definition (v := .field x) (u := .array [.field a, .field x]) ?_ ?_) (.cons (.ret (v := .array [.field a, .field x]) ?_) .nil)), rfl⟩
  · simp [evalT, evalS, asArray, asUint, bind, Except.bind, HasType, UW.bits]
  · rw [evalT, h1]
    simp [evalT, asBool, initT, fullF, dynW, dynArgs, TState.setAll, TState.set, HasType, bind, Except.bind]
  · simp [setA, getA, evalT, initT, fullF, dynW, dynArgs, TState.setAll, TState.set, HasType, asArray, asUint, UW.bits, bind, Except.bind]
  · simp [evalT, TState.set, TAssignee.root, HasType]

/-- All hypotheses are met: the compiled circuit accepts for `[a, b]`, the index 1 and `x` the outputs `a, x` and nothing else, and executing it returns them. -/
example (a b x : ZMod M127) : ∃ hash P', compilePropagated id dynC num (Pl.noFolder M127 Unit) .sourceAssemblyConstraint (Pl.keep M127 Unit) bigSem hash fullF = some (P', false) ∧
    ∀ outs, (Realises P' [a, b, 1, x] outs ↔ outs = [a, x]) ∧ (ExecutesTo bigSem P' [a, b, 1, x] outs ↔ outs = [a, x]) := by
  obtain ⟨hash, P', h1, h2⟩ := dynW_compiles
  have h1 : compilePropagated id dynC num (Pl.noFolder M127 Unit) .sourceAssemblyConstraint (Pl.keep M127 Unit) bigSem hash fullF = some (P', false) := by
    simpa only [compilePropagated, fullF_propagated] using h1
  refine ⟨hash, P', h1, fun outs => ?_⟩
  have := C55_compiled_exact_partial num_inj dynC_inj id_enumerates (by norm_num) fullF_ok fullF_free dynG_free h1 h2 (fullF_returns (Oracle.any M127 Unit) a b x) outs
  simpa [dynArgs, encode, encodeL] using this

end Zok.Typed
