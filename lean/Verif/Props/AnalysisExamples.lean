import Verif.Props.Analysis
import Verif.Props.FlattenTypesExamples

/-
A function that meets the hypotheses of `Props/Analysis.lean`.
-/

set_option linter.unusedSectionVars false

namespace Zok.Typed
open Abi Dce

/-- ```
def main(field[2] mut a, u32 i, field x) -> field[2] {
    a[i] = x;
    return a;
}
``` -/
def dynW : TFun (ZMod M127) where
  params := [⟨0, .array 2 .field, true⟩, ⟨1, .uint .b32, true⟩, ⟨2, .field, false⟩]
  ret := .array 2 .field
  body := [.definition (.select (.ident 0 (.array 2 .field)) (.ident 1 (.uint .b32))) (.ident 2 .field), .ret (.ident 0 (.array 2 .field))]

/-- The names of conditions. -/
def dynC (k : ℕ) : TId := k + 3

theorem dynC_inj : Function.Injective dynC := fun a b h => by change @Eq ℕ (a + 3) (b + 3) at h; omega

/-- `dynW` behind the passes:
```
assert(i < 2);
bool c0 = 0 == i;
bool c1 = 1 == i;
a = [if c0 { x } else { a[0] }, if c1 { x } else { a[1] }];
return a;
``` -/
def dynA : TFun (ZMod M127) where
  params := dynW.params
  ret := dynW.ret
  body := [.assertion (.ucmp .lt (.ident 1 (.uint .b32)) (.uval .b32 2)) .selectRangeCheck,
    .definition (.ident 3 .bool) (.eq (.uval .b32 0) (.ident 1 (.uint .b32))),
    .definition (.ident 4 .bool) (.eq (.uval .b32 1) (.ident 1 (.uint .b32))),
    .definition (.ident 0 (.array 2 .field)) (.array .field 2 [
      .expr (.cond .field (.ident 3 .bool) (.ident 2 .field) (.select .field (.ident 0 (.array 2 .field)) (.uval .b32 0))),
      .expr (.cond .field (.ident 4 .bool) (.ident 2 .field) (.select .field (.ident 0 (.array 2 .field)) (.uval .b32 1)))]),
    .ret (.ident 0 (.array 2 .field))]

theorem dynW_analysed : analyseTyped id dynC dynW = some dynA := by with_unfolding_all rfl

/-- The index, and the new element. -/
abbrev wi : ZId := num (.basic 1)
abbrev wx : ZId := num (.basic 2)
abbrev c0 : ZId := num (.basic 3)
abbrev c1 : ZId := num (.basic 4)

/-- `dynA` flattened. -/
def dynG : ZFun (ZMod M127) Unit where
  params := [⟨a0, .field, true⟩, ⟨a1, .field, true⟩, ⟨wi, .uint 32, true⟩, ⟨wx, .field, false⟩]
  returnCount := 2
  body := [
    .assertion (.uintLt (.mk 32 none (.ident wi)) (.mk 32 none (.value 2))) .selectRangeCheck,
    .definition c0 (.bool (.uintEq (.mk 32 none (.value 0)) (.mk 32 none (.ident wi)))),
    .definition c1 (.bool (.uintEq (.mk 32 none (.value 1)) (.mk 32 none (.ident wi)))),
    .definition a0 (.field (.cond (.ident c0) (.ident wx) (.ident a0))),
    .definition a1 (.field (.cond (.ident c1) (.ident wx) (.ident a1))),
    .ret [.field (.ident a0), .field (.ident a1)]]

theorem dynA_flat : flatFun num dynA = some dynG := by rfl
theorem dynG_propagated : Prop'.propagate (Pl.noFolder M127 Unit) .sourceAssemblyConstraint dynG = .ok dynG := by with_unfolding_all rfl
theorem dynG_free : ZStmt.OracleFreeL dynG.body := ⟨trivial, trivial, trivial, trivial, trivial, trivial, trivial⟩
theorem dynW_free : ∀ s ∈ dynW.body, s.OracleFree := by simp [dynW, TStmt.OracleFree]

theorem dynW_wt : dynW.Wt where
  params := by simp [dynW, TypeOk, CType.Distinct, CType.Small, SmallL, SmallM, primCount]
  ret := by simp [dynW, TypeOk, CType.Distinct, CType.Small, SmallL, SmallM, primCount]
  body := by
    simp [dynW, TStmt.Wt, TAssignee.Wt, TExpr.Wt, TAssignee.ty, TExpr.ty, TypeOk, CType.Distinct, CType.Small, SmallL, SmallM, primCount]

theorem dynG_ok : Compilable dynG where
  typed := by
    have hb : ∃ Γ', WtStmts (TCtx.setAll (fun _ => none) (dynG.params.map ZParam.id) (dynG.params.map ZParam.ty)) dynG.body Γ' := by
      have hw : WidthOk M127 32 := ⟨by norm_num, by decide +kernel⟩
      refine ⟨_, .cons (.assertion ?_ ?_) (.cons (.definition ?_) (.cons (.definition ?_) (.cons (.definition ?_) (.cons (.definition ?_) (.cons (.ret ?_) .nil)))))⟩
      · exact ⟨⟨rfl, hw, by change _ = some _; decide +kernel⟩, ⟨rfl, hw, by change _ < _; decide +kernel⟩, rfl⟩
      · intro c hc h
        cases hc
        exact absurd h.1 (by decide)
      · exact ⟨⟨rfl, hw, by change _ < _; decide +kernel⟩, ⟨rfl, hw, by change _ = some _; decide +kernel⟩, rfl⟩
      · exact ⟨⟨rfl, hw, by change _ < _; decide +kernel⟩, ⟨rfl, hw, by change _ = some _; decide +kernel⟩, rfl⟩
      · exact ⟨by change _ = some _; decide +kernel, by change _ = some _; decide +kernel, by change _ = some _; decide +kernel⟩
      · exact ⟨by change _ = some _; decide +kernel, by change _ = some _; decide +kernel, by change _ = some _; decide +kernel⟩
      · intro e he
        simp only [List.mem_cons, List.not_mem_nil, or_false] at he
        rcases he with rfl | rfl
        · exact by change _ = some _; decide +kernel
        · exact by change _ = some _; decide +kernel
    obtain ⟨Γ', hb⟩ := hb
    refine ⟨?_, [_, _, _, _, _], _, Γ', rfl, rfl, hb⟩
    intro q hq
    simp only [dynG, List.mem_cons, List.not_mem_nil, or_false] at hq
    rcases hq with rfl | rfl | rfl | rfl
    · trivial
    · trivial
    · exact ⟨by norm_num, by decide +kernel⟩
    · trivial
  plain := by decide +kernel
  powers := by
    simp [dynG, ZStmt.ExtractableL, ZStmt.Extractable, ZExpr.NoPowZero, FExpr.NoPowZero, BExpr.NoPowZero, UExpr.NoPowZero, UInner.NoPowZero]
  apart := by simp [dynG, ZStmt.BranchesApartL, ZStmt.BranchesApart]
  ret := ⟨[_, _, _, _, _], _, rfl, trivial, trivial, trivial, trivial, trivial, trivial⟩
  noAsm := Pl.noAsmL_of_free _ dynG_free
  noCast := ⟨trivial, trivial, trivial, trivial, trivial, trivial, trivial⟩

theorem dynW_ok : Analysed id dynC num (Pl.noFolder M127 Unit) .sourceAssemblyConstraint dynW dynG where
  typed := dynW_wt
  inOrder := by simp [dynW, TStmt.InOrder, TAssignee.root, TExpr.vars]
  fresh := by simp [dynW, FreshCalls]
  calls := by simp [dynW, ConstantCalls]
  names := by
    intro x hx k h
    have hall : ∀ x ∈ dynW.vars, @LT.lt ℕ _ x 3 := by decide +kernel
    have hlt := hall x hx
    change @Eq ℕ x (k + 3) at h
    omega
  propagated := ⟨dynA, dynG, dynW_analysed, dynA_flat, dynG_propagated⟩
  compilable := dynG_ok

theorem dynW_compiles : ∃ hash P', compileAnalysed id dynC num (Pl.noFolder M127 Unit) .sourceAssemblyConstraint (Pl.keep M127 Unit) bigSem hash dynW = some (P', false) ∧
    HashOk (Pl.keep M127 Unit) bigSem hash dynG := by
  obtain ⟨hash, P', h1, h2⟩ := pipe_compiles_of (sem := bigSem) (f := dynG) (H := Pl.keep M127 Unit) (c := false) (by decide +kernel)
  exact ⟨hash, P', by simpa only [compileAnalysed, dynW_analysed, compileTyped, dynA_flat, compileFlattened, dynG_propagated] using h1, h2⟩

/-- The arguments `[a, b]`, `i` and `x`. -/
def dynArgs (a b : ZMod M127) (i : ℕ) (x : ZMod M127) : List (AVal (ZMod M127)) := [.array [.field a, .field b], .uint .b32 i, .field x]

theorem dynW_returns (O : Oracle M127 Unit) (a b x : ZMod M127) : ReturnsT O dynW (dynArgs a b 1 x) (.array [.field a, .field x]) := by
  refine ⟨by simp [dynW, dynArgs, HasTypeL, HasType, UW.bits], _,
    .cons (.definition (v := .field x) (u := .array [.field a, .field x]) ?_ ?_) (.cons (.ret (v := .array [.field a, .field x]) ?_) .nil), rfl⟩
  · simp [evalT, initT, dynW, dynArgs, TState.setAll, TState.set, HasType]
  · simp [setA, getA, evalT, initT, dynW, dynArgs, TState.setAll, TState.set, HasType, asArray, asUint, UW.bits, bind, Except.bind]
  · simp [evalT, TState.set, TAssignee.root, HasType]

/-- All hypotheses are met: the compiled circuit accepts for `[a, b]`, the index 1 and `x` the outputs `a, x` and nothing else, and executing it returns them. -/
example (a b x : ZMod M127) : ∃ hash P', compileAnalysed id dynC num (Pl.noFolder M127 Unit) .sourceAssemblyConstraint (Pl.keep M127 Unit) bigSem hash dynW = some (P', false) ∧
    ∀ outs, (Realises P' [a, b, 1, x] outs ↔ outs = [a, x]) ∧ (ExecutesTo bigSem P' [a, b, 1, x] outs ↔ outs = [a, x]) := by
  obtain ⟨hash, P', h1, h2⟩ := dynW_compiles
  refine ⟨hash, P', h1, fun outs => ?_⟩
  have := C53_compiled_exact_partial num_inj dynC_inj id_enumerates (by norm_num) dynW_ok dynW_free dynG_free h1 h2 (dynW_returns (Oracle.any M127 Unit) a b x) outs
  simpa [dynArgs, encode, encodeL] using this

/-! ### An assignment that reads the assigned variable -/

/-- ```
def main(field[2] mut a, u32 i) -> field[2] {
    a[i] = 1 / (a[i] - 1);
    return a;
}
``` -/
def invF : TFun (ZMod M127) where
  params := [⟨0, .array 2 .field, true⟩, ⟨1, .uint .b32, true⟩]
  ret := .array 2 .field
  body := [.definition (.select (.ident 0 (.array 2 .field)) (.ident 1 (.uint .b32)))
      (.fbin .div (.fval 1) (.fbin .sub (.select .field (.ident 0 (.array 2 .field)) (.ident 1 (.uint .b32))) (.fval 1))),
    .ret (.ident 0 (.array 2 .field))]

/-- `1 / (a[i] - 1)` -/
def invE : FExpr (ZMod M127) := .div (.value 1) (.sub (.select [.ident a0, .ident a1] (.mk 32 none (.ident wi))) (.value 1))

/-- `invF` behind the passes, and flattened. -/
def invG : ZFun (ZMod M127) Unit where
  params := [⟨a0, .field, true⟩, ⟨a1, .field, true⟩, ⟨wi, .uint 32, true⟩]
  returnCount := 2
  body := [
    .assertion (.uintLt (.mk 32 none (.ident wi)) (.mk 32 none (.value 2))) .selectRangeCheck,
    .definition c0 (.bool (.uintEq (.mk 32 none (.value 0)) (.mk 32 none (.ident wi)))),
    .definition c1 (.bool (.uintEq (.mk 32 none (.value 1)) (.mk 32 none (.ident wi)))),
    .definition a0 (.field (.cond (.ident c0) invE (.ident a0))),
    .definition a1 (.field (.cond (.ident c1) invE (.ident a1))),
    .ret [.field (.ident a0), .field (.ident a1)]]

theorem invF_flat : (analyseTyped id dynC invF).bind (flatFun num) = some invG := by with_unfolding_all rfl

theorem invF_returns (O : Oracle M127 Unit) (b : ZMod M127) : ReturnsT O invF [.array [.field 2, .field b], .uint .b32 0] (.array [.field 1, .field b]) := by
  have h1 : (2 : ZMod M127) - 1 = 1 := by decide +kernel
  have h2 : (1 : ZMod M127) ≠ 0 := by decide +kernel
  refine ⟨by simp [invF, HasTypeL, HasType, UW.bits], _,
    .cons (.definition (v := .field 1) (u := .array [.field 1, .field b]) ?_ ?_) (.cons (.ret (v := .array [.field 1, .field b]) ?_) .nil), rfl⟩
  · simp [evalT, initT, invF, TState.setAll, TState.set, HasType, asArray, asUint, asField, selectVal, FOp.eval, UW.bits, bind, Except.bind, h1]
  · simp [setA, getA, evalT, initT, invF, TState.setAll, TState.set, HasType, asArray, asUint, UW.bits, bind, Except.bind]
  · simp [evalT, TState.set, TAssignee.root, HasType]

/-- **C53**, the exception: an assignment with a run-time index whose right side reads the variable. The source sets `a[0]` to 1 on `[2, b]` and the index 0; the
flattened function assigns `a[0]` first, and then fails in the computation of `a[1]`, which divides by `a[0] - 1` in the branch that is not taken. -/
theorem C53_indexed_division_fails (O : Oracle M127 Unit) (b : ZMod M127) : invF.Wt ∧ (analyseTyped id dynC invF).bind (flatFun num) = some invG ∧
    ReturnsT O invF [.array [.field 2, .field b], .uint .b32 0] (.array [.field 1, .field b]) ∧
    Faults O invG (encodeL [.array [.field 2, .field b], .uint .b32 0]) .divZero ∧ ∀ outs, ¬ Returns O invG (encodeL [.array [.field 2, .field b], .uint .b32 0]) outs := by
  refine ⟨⟨?_, ?_, ?_⟩, invF_flat, invF_returns O b, ?_⟩
  · simp [invF, TypeOk, CType.Distinct, CType.Small, SmallL, SmallM, primCount]
  · simp [invF, TypeOk, CType.Distinct, CType.Small, SmallL, SmallM, primCount]
  · simp [invF, TStmt.Wt, TAssignee.Wt, TExpr.Wt, TAssignee.ty, TExpr.ty, TypeOk, CType.Distinct, CType.Small, SmallL, SmallM, primCount]
  · have hf : Faults O invG (encodeL [.array [.field 2, .field b], .uint .b32 0]) .divZero := by
      have h1 : (2 : ZMod M127) - 1 = 1 := by decide +kernel
      have e1 : a0 ≠ a1 := by decide +kernel
      have e2 : a0 ≠ wi := by decide +kernel
      have e3 : a1 ≠ wi := by decide +kernel
      have e4 : c0 ≠ c1 := by decide +kernel
      have e5 : a0 ≠ c0 := by decide +kernel
      have e6 : a0 ≠ c1 := by decide +kernel
      have e7 : a1 ≠ c0 := by decide +kernel
      have e8 : a1 ≠ c1 := by decide +kernel
      have e9 : wi ≠ c0 := by decide +kernel
      have e10 : wi ≠ c1 := by decide +kernel
      refine ⟨[.field 2, .field b, .uint 32 0], by rfl, .cons (.assertOk ?_) (.cons (.definition (v := .bool true) ?_) (.cons (.definition (v := .bool false) ?_)
        (.cons (.definition (v := .field 1) ?_) (.fault (.definitionFault ?_)))))⟩
      all_goals
        simp [evalZ, evalF, evalFs, evalB, evalU, evalUI, initState, invG, invE, ZState.setAll, ZState.set, selectVal, bind, Except.bind, h1, e1, e2, e3, e4, e5, e6, e7, e8,
          e9, e10, e1.symm, e2.symm, e3.symm, e4.symm, e5.symm, e6.symm, e7.symm, e8.symm, e9.symm, e10.symm]
    exact ⟨hf, fun outs h => h.not_faults (by exact ⟨trivial, trivial, trivial, trivial, trivial, trivial, trivial⟩) hf⟩

end Zok.Typed
