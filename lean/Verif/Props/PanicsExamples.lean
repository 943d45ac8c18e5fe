import Verif.Props.Panics
import Verif.Spec.TestField

/-
A program that meets the hypotheses of `Props/Panics.lean`, and expressions the pass does not guard.
-/

namespace Zok
open Px

/-- ```
def main(field x, field y) -> field {
    field z = x < y ? x / (y - x) : y;
    return 1 / z;
}
``` -/
def quotF : ZFun (ZMod 97) Unit where
  params := [⟨0, .field, true⟩, ⟨1, .field, true⟩]
  returnCount := 1
  body := [
    .definition 2 (.field (.cond (.fieldLt (.ident 0) (.ident 1)) (.div (.ident 0) (.sub (.ident 1) (.ident 0))) (.ident 1))),
    .ret [.field (.div (.value 1) (.ident 2))]]

/-- Hints are left alone. -/
def sameHint : Unit → List (ZStmt (ZMod 97) Unit) → Unit := fun z _ => z

example : ZStmt.ExtractableL quotF.body := by
  simp [quotF, ZStmt.ExtractableL, ZStmt.Extractable, ZExpr.NoPowZero, FExpr.NoPowZero, BExpr.NoPowZero]

/-- The assertions of `quotF`. -/
example : (extractPanics sameHint quotF).body = [
    .assertion (.fieldLt (.add (.value 32) (.sub (.ident 0) (.ident 1))) (.value 64)) .incompleteDynamicRange,
    .assertion (.not (.fieldEq (.sub (.ident 1) (.ident 0)) (.value 32))) .incompleteDynamicRange,
    .ifElse (.fieldLt (.ident 0) (.ident 1)) [.assertion (.not (.fieldEq (.sub (.ident 1) (.ident 0)) (.value 0))) .inverse] [],
    .definition 2 (.field (.cond (.fieldLt (.ident 0) (.ident 1)) (.div (.ident 0) (.sub (.ident 1) (.ident 0))) (.ident 1))),
    .assertion (.not (.fieldEq (.ident 2) (.value 0))) .inverse,
    .ret [.field (.div (.value 1) (.ident 2))]] := by
  have h1 : (ltOffset 97) = 32 := by decide +kernel
  have h2 : (ltMax 97) = 64 := by decide +kernel
  simp only [extractPanics, quotF, exStmts, exStmt, exZ, exZs, exF, exB, isValueF, condGuard, ltGuardMax, ltGuardMin, h1, h2, fieldDivGuard]
  rfl

/-- `quotF` fails with a division by zero on `x = 0`, `y = 1` (`z` is 0): after the pass it fails before. -/
example : Faults (Oracle.any 97 Unit) quotF [0, 1] .divZero ∧ ¬ Faults (Oracle.any 97 Unit) (extractPanics sameHint quotF) [0, 1] .divZero ∧
    ∃ e, Faults (Oracle.any 97 Unit) (extractPanics sameHint quotF) [0, 1] e := by
  have hx : ZStmt.ExtractableL quotF.body := by
    simp [quotF, ZStmt.ExtractableL, ZStmt.Extractable, ZExpr.NoPowZero, FExpr.NoPowZero, BExpr.NoPowZero]
  have h : Faults (Oracle.any 97 Unit) quotF [0, 1] .divZero := by
    refine ⟨[.field 0, .field 1], by decide +kernel, .cons (.definition (v := .field 0) (by decide +kernel)) (.fault (.retFault ?_))⟩
    decide +kernel
  exact ⟨h, C44_no_division_by_zero (by norm_num) (fun _ => rfl) hx _, (C44_failures (by norm_num) (fun _ => rfl) hx _).2 ⟨_, h⟩⟩

/-- It returns on `x = 2`, `y = 3`, before and after: `z` is 2, the result is the inverse of 2. -/
example : Returns (Oracle.any 97 Unit) (extractPanics sameHint quotF) [2, 3] [49] := by
  have hx : ZStmt.ExtractableL quotF.body := by
    simp [quotF, ZStmt.ExtractableL, ZStmt.Extractable, ZExpr.NoPowZero, FExpr.NoPowZero, BExpr.NoPowZero]
  refine ((C44_results (by norm_num) (fun _ => rfl) hx).2.2 _ _).2 ⟨[.field 2, .field 3],
    _, [.field 49], by decide +kernel, .cons (.definition (v := .field 2) (by decide +kernel)) (.cons (.ret (vs := [.field 49]) (by decide +kernel)) .nil), rfl, ?_⟩
  decide +kernel

/-- Remainders of integers are not guarded: no assertion is in front of `x % y`. -/
theorem C44_remainder_unguarded {p : ℕ} [Fact p.Prime] (w : ℕ) (x y : ZId) :
    (exU (.mk w none (.rem (.mk w none (.ident x)) (.mk w none (.ident y))) : UExpr (ZMod p)) ([] : Buf p Unit)).2 = [] := rfl

/-- A comparison with an operand `x ** 0` is defined for all `y`, but the pass adds assertions which fail for some: such
programs are excluded by `ZStmt.Extractable`. -/
theorem C44_power_zero_overguarded : ∃ f : ZFun (ZMod 97) Unit, ∃ ins outs, Returns (Oracle.any 97 Unit) f ins outs ∧
    ¬ Returns (Oracle.any 97 Unit) (extractPanics sameHint f) ins outs := by
  refine ⟨⟨[⟨0, .field, true⟩], [.ret [.bool (.fieldLt (.ident 0) (.pow (.ident 0) (.mk 32 none (.value 0))))]], 1⟩, [50], [0], ?_, ?_⟩
  · exact ⟨[.field 50], _, [.bool false], by decide +kernel, .cons (.ret (vs := [.bool false]) (by decide +kernel)) .nil, rfl, by decide +kernel⟩
  · rintro ⟨vs, σ, rs, h1, h2, h3, h4⟩
    have hd : decodeArgs [(⟨0, .field, true⟩ : ZParam)] [(50 : ZMod 97)] = some [.field 50] := by decide +kernel
    change decodeArgs [(⟨0, .field, true⟩ : ZParam)] [(50 : ZMod 97)] = some vs at h1
    rw [hd] at h1
    cases h1
    change ExecL _ _ (_ :: _) _ at h2
    cases h2 with
    | cons h5 h6 =>
      cases h5 with
      | assertOk h7 =>
        revert h7
        decide +kernel

end Zok
