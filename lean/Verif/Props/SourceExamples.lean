import Verif.Props.Source
import Verif.Props.WholeExamples

/-
A source function that meets the hypotheses of `Props/Source.lean`.
-/

set_option linter.unusedSectionVars false

namespace Zok.Sem
open Abi Dce Typed Pl

/-- ```
def main(field x, private field y) -> field {
    field[2] mut a = [x, y];
    a[0] = a[0] * y;
    assert(x == 2);
    return a[0] + 1;
}
``` -/
def srcF : Sem.SFun where
  params := [(⟨0, .field, false⟩, false), (⟨1, .field, true⟩, false)]
  ret := .field
  body := [
    .definition 2 (.array 2 .field) true (.array [.expr (.ident 0), .expr (.ident 1)]),
    .assignment (.select (.ident 2) (.int 0)) (.bin .mul (.select (.ident 2) (.int 0)) (.ident 1)),
    .assertion (.eq (.ident 0) (.int 2)) .selectRangeCheck,
    .ret (.bin .add (.select (.ident 2) (.int 0)) (.int 1))]

/-- The array. -/
abbrev aTy : CType := .array 2 .field

/-- The same, typed. -/
def srcT : TFun (ZMod M127) where
  params := [⟨0, .field, false⟩, ⟨1, .field, true⟩]
  ret := .field
  body := [
    .definition (.ident 2 aTy) (.array .field 2 [.expr (.ident 0 .field), .expr (.ident 1 .field)]),
    .definition (.select (.ident 2 aTy) (.uval .b32 0)) (.fbin .mult (.select .field (.ident 2 aTy) (.uval .b32 0)) (.ident 1 .field)),
    .assertion (.eq (.ident 0 .field) (.fval ((2 : ℕ) : ZMod M127))) .selectRangeCheck,
    .ret (.fbin .add (.select .field (.ident 2 aTy) (.uval .b32 0)) (.fval ((1 : ℕ) : ZMod M127)))]

theorem srcF_check : checkFun (p := M127) noD srcF = .ok srcT := by with_unfolding_all rfl

/-- The function the reducer makes of it. -/
def srcG : TFun (ZMod M127) where
  params := [⟨nid 0 1 0, .field, false⟩, ⟨nid 0 2 0, .field, true⟩]
  ret := .field
  body := [
    .definition (.ident (nid 0 3 0) aTy) (.array .field 2 [.expr (.ident (nid 0 1 0) .field), .expr (.ident (nid 0 2 0) .field)]),
    .definition (.select (.ident (nid 0 3 0) aTy) (.uval .b32 0)) (.fbin .mult (.select .field (.ident (nid 0 3 0) aTy) (.uval .b32 0)) (.ident (nid 0 2 0) .field)),
    .assertion (.eq (.ident (nid 0 1 0) .field) (.fval ((2 : ℕ) : ZMod M127))) .selectRangeCheck,
    .ret (.fbin .add (.select .field (.ident (nid 0 3 0) aTy) (.uval .b32 0)) (.fval ((1 : ℕ) : ZMod M127)))]

theorem srcF_reduced : reduce noFunctions 10 (toReduce srcT) = .ok srcG := by with_unfolding_all rfl

/-- The same, flattened. -/
def srcZ : ZFun (ZMod M127) Unit where
  params := [⟨vx, .field, false⟩, ⟨vy, .field, true⟩]
  returnCount := 1
  body := [
    .definition va0 (.field (.ident vx)),
    .definition va1 (.field (.ident vy)),
    .definition va0 (.field (.mult (.ident va0) (.ident vy))),
    .assertion (.fieldEq (.ident vx) (.value 2)) .selectRangeCheck,
    .ret [.field (.add (.ident va0) (.value 1))]]

theorem srcG_propagated : propagateT srcG = .ok srcG := by with_unfolding_all rfl
theorem srcG_analysed : analyseTyped id freshName srcG = some srcG := by with_unfolding_all rfl
theorem srcG_flat : flatFun num srcG = some srcZ := by with_unfolding_all rfl
theorem srcZ_propagated : Prop'.propagate (Pl.noFolder M127 Unit) .sourceAssemblyConstraint srcZ = .ok srcZ := by with_unfolding_all rfl
theorem srcZ_free : ZStmt.OracleFreeL srcZ.body := by simp [srcZ, ZStmt.OracleFreeL, ZStmt.OracleFree]

theorem srcZ_ok : Compilable srcZ where
  typed := by
    have hb : ∃ Γ', WtStmts (TCtx.setAll (fun _ => none) (srcZ.params.map ZParam.id) (srcZ.params.map ZParam.ty)) srcZ.body Γ' := by
      refine ⟨_, .cons (.definition ?_) (.cons (.definition ?_) (.cons (.definition ⟨?_, ?_⟩) (.cons (.assertion ⟨?_, trivial⟩ ?_) (.cons (.ret ?_) .nil))))⟩
      case refine_6 =>
        intro c hc h
        cases hc
        exact h.elim
      case refine_7 =>
        intro e he
        simp only [List.mem_cons, List.not_mem_nil, or_false] at he
        subst he
        refine ⟨?_, trivial⟩
        change _ = some _
        decide +kernel
      all_goals
        change _ = some _
        decide +kernel
    obtain ⟨Γ', hb⟩ := hb
    refine ⟨?_, [_, _, _, _], _, Γ', rfl, rfl, hb⟩
    intro q hq
    simp only [srcZ, List.mem_cons, List.not_mem_nil, or_false] at hq
    rcases hq with rfl | rfl
    · trivial
    · trivial
  plain := by decide +kernel
  powers := by
    simp [srcZ, ZStmt.ExtractableL, ZStmt.Extractable, ZExpr.NoPowZero, FExpr.NoPowZero, BExpr.NoPowZero]
  apart := by simp [srcZ, ZStmt.BranchesApartL, ZStmt.BranchesApart]
  ret := ⟨[_, _, _, _], _, rfl, trivial, trivial, trivial, trivial, trivial⟩
  noAsm := Pl.noAsmL_of_free _ srcZ_free
  noCast := ⟨trivial, trivial, trivial, trivial, trivial, trivial⟩

theorem srcF_types : srcF.TypesOk := by
  have h : TypeOk (.array 2 .field) := typeOk_array typeOk_field (by norm_num)
  refine ⟨?_, typeOk_field, ?_⟩
  · intro q hq
    simp only [srcF, List.mem_cons, List.not_mem_nil, or_false] at hq
    rcases hq with rfl | rfl <;> exact typeOk_field
  · intro s hs t ht
    simp only [srcF, List.mem_cons, List.not_mem_nil, or_false] at hs
    rcases hs with rfl | rfl | rfl | rfl <;> simp only [SStmt.declares, List.mem_singleton, List.not_mem_nil] at ht
    subst ht
    exact h

theorem srcT_wt : srcT.Wt where
  params := by simp [srcT, TypeOk, CType.Distinct, CType.Small, primCount]
  ret := by simp [srcT, TypeOk, CType.Distinct, CType.Small, primCount]
  body := by
    simp [srcT, TStmt.Wt, TAssignee.Wt, TExpr.Wt, WtS, spreadCount, TAssignee.ty, TExpr.ty, TypeOk, CType.Distinct, CType.Small, primCount, UW.bits]

theorem srcF_compiled : Compiled noD id num (Pl.noFolder M127 Unit) .sourceAssemblyConstraint 10 srcF srcZ where
  decls := noD_ok
  types := srcF_types
  checked := by
    refine ⟨srcT, srcF_check, srcT_wt, srcG, srcF_reduced, ?_, srcG, srcG, srcZ, srcG_propagated, srcG_analysed, srcG_flat, srcZ_propagated⟩
    simp [srcG, TStmt.InOrder, TAssignee.root, TAssignee.ConstantIndices, TAssignee.indices, TAssignee.ty, primCount, TExpr.vars, varsS, nid]
  compilable := srcZ_ok

theorem srcF_compiles : ∃ hash P', compileSource noD id freshName num (Pl.noFolder M127 Unit) .sourceAssemblyConstraint (Pl.keep M127 Unit) bigSem hash 10 srcF = some (P', false) ∧
    HashOk (Pl.keep M127 Unit) bigSem hash srcZ := by
  obtain ⟨hash, P', h1, h2⟩ := pipe_compiles_of (sem := bigSem) (f := srcZ) (H := Pl.keep M127 Unit) (c := false) (by decide +kernel)
  refine ⟨hash, P', ?_, h2⟩
  unfold compileSource
  rw [srcF_check]
  dsimp only
  unfold Typed.compileReduced
  rw [srcF_reduced]
  dsimp only
  unfold Typed.compilePropagated
  rw [srcG_propagated]
  dsimp only
  unfold Typed.compileAnalysed
  rw [srcG_analysed]
  dsimp only
  unfold Typed.compileTyped
  rw [srcG_flat]
  dsimp only
  unfold compileFlattened
  rw [srcZ_propagated]
  exact h1

/-- On `2` and `y` the source function returns `2 * y + 1`. -/
theorem srcF_returns (y : ZMod M127) : Returns noD srcF [.field 2, .field y] (.field (2 * y + 1)) := by
  refine ⟨by simp [srcF, HasTypeL, HasType], ?_⟩
  refine .definition (v := .array [.field 2, .field y]) (.array (.expr (.ident rfl) (.expr (.ident rfl) .nil))) ?_
  refine .assignment (t := .field) (T := aTy) (old := .field 2) (v := .field (2 * y)) (w := .array [.field (2 * y), .field y]) (w' := .array [.field 2, .field y]) (x := 2)
    (.select (.ident rfl) (.intU (by decide)) rfl) (.fmul (.select trivial (.ident rfl) (.intU (by decide)) rfl) (.ident rfl))
    (.select (k := 0) (.ident rfl) (.intU (n := 0) (w := .b32) (by decide)) (by simp) .ident) rfl ?_
  refine .assertion (.eqT (t := .field) (a := .field 2) (.inl trivial) (.ident rfl) (.intF (n := 2) (by norm_num [M127]))) ?_
  have h1 : ((1 : ℕ) : ZMod M127) = 1 := Nat.cast_one
  rw [← h1]
  exact .ret (.fadd (.select trivial (.ident rfl) (.intU (by decide)) rfl) (.intF (by norm_num [M127])))

/-- On `x` other than `2` the assertion fails. -/
theorem srcF_fails {x : ZMod M127} (hx : x ≠ 2) (y : ZMod M127) : Fails noD srcF [.field x, .field y] := by
  refine ⟨by simp [srcF, HasTypeL, HasType], ?_⟩
  refine .definition (v := .array [.field x, .field y]) (.array (.expr (.ident rfl) (.expr (.ident rfl) .nil))) ?_
  refine .assignment (t := .field) (T := aTy) (old := .field x) (v := .field (x * y)) (w := .array [.field (x * y), .field y]) (w' := .array [.field x, .field y]) (x := 2)
    (.select (.ident rfl) (.intU (by decide)) rfl) (.fmul (.select trivial (.ident rfl) (.intU (by decide)) rfl) (.ident rfl))
    (.select (k := 0) (.ident rfl) (.intU (n := 0) (w := .b32) (by decide)) (by simp) .ident) rfl ?_
  refine .here (.eqF (t := .field) (a := .field x) (b := .field ((2 : ℕ) : ZMod M127)) (.inl trivial) (.ident rfl) (.intF (n := 2) (by norm_num [M127])) ?_)
  intro h
  rw [AVal.field.injEq, Nat.cast_two] at h
  exact hx h

theorem three : (3 : ZMod M127) ≠ 2 := by
  intro h
  cases h

/-- All hypotheses are met: the compiled circuit accepts for `2` and `y` the output `2 * y + 1` and nothing else, and executing it returns it; and it accepts nothing for `3`. -/
example (y : ZMod M127) : ∃ hash P', compileSource noD id freshName num (Pl.noFolder M127 Unit) .sourceAssemblyConstraint (Pl.keep M127 Unit) bigSem hash 10 srcF = some (P', false) ∧
    ∀ outs, (Realises P' [2, y] outs ↔ outs = [2 * y + 1]) ∧ (ExecutesTo bigSem P' [2, y] outs ↔ outs = [2 * y + 1]) ∧ ¬ Realises P' [3, y] outs := by
  obtain ⟨hash, P', h1, h2⟩ := srcF_compiles
  refine ⟨hash, P', h1, fun outs => ?_⟩
  have hr := C69_compiled_rejects_partial num_inj id_enumerates (by norm_num) srcF_compiled srcZ_free h1 h2 (srcF_fails three y) outs
  have := C69_compiled_exact_partial num_inj id_enumerates (by norm_num) srcF_compiled srcZ_free h1 h2 (srcF_returns y) outs
  simp only [encode, encodeL, List.append_nil, List.cons_append, List.nil_append] at this hr
  exact ⟨this.1, this.2, hr⟩

/-- The statements leave no type open. -/
theorem srcF_definite : DefiniteSS srcF.stmts := by
  simp [srcF, SFun.stmts, SStmt.isRet, DefiniteSS, SExpr.Definite, SAssignee.Definite, DefiniteS, SExpr.Det]

/-- Whatever satisfies the circuit consists of `2`, `y` and `2 * y + 1`. -/
example {hash : Stmt (ZMod M127) Unit → ℕ} {P' : Prog (ZMod M127) Unit}
    (h : compileSource noD id freshName num (Pl.noFolder M127 Unit) .sourceAssemblyConstraint (Pl.keep M127 Unit) bigSem hash 10 srcF = some (P', false))
    (hh : HashOk (Pl.keep M127 Unit) bigSem hash srcZ) {ins outs : List (ZMod M127)} (hr : Realises P' ins outs) : ∃ y, ins = [2, y] ∧ outs = [2 * y + 1] := by
  obtain ⟨args, ht, rfl, hc⟩ := C69_compiled_sound_partial num_inj id_enumerates (by norm_num) srcF_compiled srcZ_free h hh hr
  obtain ⟨x, y, rfl⟩ : ∃ x y : ZMod M127, args = [.field x, .field y] := by
    match args, ht with
    | [.field x, .field y], _ => exact ⟨x, y, rfl⟩
    | [], ht => exact ht.elim
    | [_], ht => exact ht.2.elim
    | _ :: _ :: _ :: _, ht => exact ht.2.2.elim
  by_cases hx : x = 2
  · subst hx
    refine ⟨y, by simp [encode, encodeL], ?_⟩
    obtain ⟨tf, h1, h2, -⟩ := srcF_compiled.checked
    rcases hc with ⟨out, hout, rfl⟩ | ⟨hn, -⟩
    · rw [(C69_unique srcF_compiled.decls srcF_compiled.types h1 h2 (srcF_returns y)).1 _ hout]
      simp [encode]
    · exact (hn _ (srcF_returns y)).elim
  · exact (C69_compiled_rejects_partial num_inj id_enumerates (by norm_num) srcF_compiled srcZ_free h hh (srcF_fails hx y) outs hr).elim

end Zok.Sem
