import Verif.Props.DeadCode
import Verif.Props.PanicsExamples

/-
A program that meets the hypotheses of `Props/DeadCode.lean`, and programs for which the conclusions are wrong without them.
-/

namespace Zok
open Dce

/-- There are no hints. -/
def noHint : Unit → Used → Unit × Used := fun z u => (z, u)
/-- There are no hints. -/
def noIds : Unit → List ZId := fun _ => []

theorem noHint_kept : HintsKept (Oracle.any 97 Unit) noHint :=
  ⟨fun _ _ => rfl, fun _ _ _ h => h⟩

/-- ```
def main(field x, field y) -> field {
    field a = x / y;  // only used for b
    field b = a * a;  // not used
    field c = x + y;
    bool d = unsafe_cast(y);  // not used
    assert(!(c == 5));
    return c * x;
}
``` -/
def deadF : ZFun (ZMod 97) Unit where
  params := [⟨0, .field, true⟩, ⟨1, .field, true⟩]
  returnCount := 1
  body := [
    .definition 2 (.field (.div (.ident 0) (.ident 1))),
    .definition 3 (.field (.mult (.ident 2) (.ident 2))),
    .definition 4 (.field (.add (.ident 0) (.ident 1))),
    .multiDef [5] .fieldToBoolUnsafe [] [.field (.ident 1)],
    .assertion (.not (.fieldEq (.ident 4) (.value 5))) .inverse,
    .ret [.field (.mult (.ident 4) (.ident 0))]]

theorem deadF_first : ZStmt.AssignedFirstL noIds deadF.body := by
  simp only [deadF, ZStmt.AssignedFirstL, ZStmt.AssignedFirst, ZStmt.assignsL, ZStmt.assigns, ZStmt.mentions, idsZ, idsZs, idsF, idsB]
  decide
theorem deadF_apart : ZStmt.BranchesApartL noIds deadF.body := by simp [deadF, ZStmt.BranchesApartL, ZStmt.BranchesApart]
theorem deadF_args : ZStmt.ArgsUsedL noHint deadF.body := by simp [deadF, ZStmt.ArgsUsedL, ZStmt.ArgsUsed]
theorem deadF_calls : ZStmt.CallsOkL (Oracle.any 97 Unit) deadF.body := by
  simp only [deadF, ZStmt.CallsOkL, ZStmt.CallsOk, and_true, true_and]
  exact .cast
theorem deadF_extractable : ZStmt.ExtractableL deadF.body := by
  simp [deadF, ZStmt.ExtractableL, ZStmt.Extractable, ZExpr.NoPowZero, FExpr.NoPowZero, BExpr.NoPowZero]

/-- What is left of `deadF`. -/
example : (eliminateDeadCode noHint deadF).body = [
    .definition 4 (.field (.add (.ident 0) (.ident 1))),
    .assertion (.not (.fieldEq (.ident 4) (.value 5))) .inverse,
    .ret [.field (.mult (.ident 4) (.ident 0))]] := rfl

/-- The assertion that guards the unused quotient is left, and nothing else of it. -/
example : (eliminateDeadCode noHint (extractPanics sameHint deadF)).body = [
    .assertion (.not (.fieldEq (.ident 1) (.value 0))) .inverse,
    .definition 4 (.field (.add (.ident 0) (.ident 1))),
    .assertion (.not (.fieldEq (.ident 4) (.value 5))) .inverse,
    .ret [.field (.mult (.ident 4) (.ident 0))]] := rfl

/-- It returns 6 on 2 and 1. -/
example : Returns (Oracle.any 97 Unit) (eliminateDeadCode noHint deadF) [2, 1] [6] := by
  refine (C45_results noHint_kept deadF_apart deadF_args).2.2 _ _ ⟨[.field 2, .field 1], _, [.field 6], by decide +kernel,
    .cons (.definition (v := .field 2) (by decide +kernel)) (.cons (.definition (v := .field 4) (by decide +kernel))
    (.cons (.definition (v := .field 3) (by decide +kernel)) (.cons (.multiDef (vs := [.field 1]) (rs := [.bool true]) (by decide +kernel) ?_ rfl)
    (.cons (.assertOk (by decide +kernel)) (.cons (.ret (vs := [.field 6]) (by decide +kernel)) .nil))))), rfl, by decide +kernel⟩
  exact EmbedRes.castBool [] true

/-- Every definition that is left is used. -/
example : (4 : ZId) ∈ ZStmt.mentionsL noIds (eliminateDeadCode noHint deadF).body.tail ∧ (4 : ZId) ∉ ZStmt.assignsL (eliminateDeadCode noHint deadF).body.tail :=
  (C45_no_dead_definitions (hd := noHint) (hm := noIds) (fun _ _ _ h => Or.inl h) deadF_first [] _ _ rfl).1 4 _ rfl

/-- ```
def main(mut field x) -> field {
    x = x * x;
    x = x + 1;
    field a = x;
    a = x * a;  // both assignments to a are removed
    return x;
}
``` -/
def deadR : ZFun (ZMod 97) Unit where
  params := [⟨0, .field, true⟩]
  returnCount := 1
  body := [
    .definition 0 (.field (.mult (.ident 0) (.ident 0))),
    .definition 0 (.field (.add (.ident 0) (.value 1))),
    .definition 1 (.field (.ident 0)),
    .definition 1 (.field (.mult (.ident 0) (.ident 1))),
    .ret [.field (.ident 0)]]

/-- Variables may be assigned more than once. -/
example : (eliminateDeadCode noHint deadR).body = [
    .definition 0 (.field (.mult (.ident 0) (.ident 0))),
    .definition 0 (.field (.add (.ident 0) (.value 1))),
    .ret [.field (.ident 0)]] ∧ Returns (Oracle.any 97 Unit) (eliminateDeadCode noHint deadR) [5] [26] := by
  refine ⟨rfl, (C45_results (hm := noIds) noHint_kept (by simp [deadR, ZStmt.BranchesApartL, ZStmt.BranchesApart])
    (by simp [deadR, ZStmt.ArgsUsedL, ZStmt.ArgsUsed])).2.2 _ _ ⟨[.field 5], _, [.field 26], by decide +kernel,
    .cons (.definition (v := .field 25) (by decide +kernel)) (.cons (.definition (v := .field 26) (by decide +kernel))
    (.cons (.definition (v := .field 26) (by decide +kernel)) (.cons (.definition (v := .field 94) (by decide +kernel))
    (.cons (.ret (vs := [.field 26]) (by decide +kernel)) .nil)))), rfl, by decide +kernel⟩⟩

/-- Without the extraction of panics a division by zero is forgotten. -/
example : Faults (Oracle.any 97 Unit) deadF [2, 0] .divZero ∧ Returns (Oracle.any 97 Unit) (eliminateDeadCode noHint deadF) [2, 0] [4] := by
  refine ⟨⟨[.field 2, .field 0], by decide +kernel, .fault (.definitionFault (by decide +kernel))⟩, [.field 2, .field 0], _, [.field 4], by decide +kernel,
    .cons (.definition (v := .field 2) (by decide +kernel)) (.cons (.assertOk (by decide +kernel)) (.cons (.ret (vs := [.field 4]) (by decide +kernel)) .nil)),
    rfl, by decide +kernel⟩

/-- With it, it is not. -/
example : ∃ e, Faults (Oracle.any 97 Unit) (eliminateDeadCode noHint (extractPanics sameHint deadF)) [2, 0] e :=
  C45_division_by_zero_kept (by norm_num) (fun _ => rfl) deadF_extractable noHint_kept (fun _ _ h => h) deadF_apart
    (by
      have : (extractPanics sameHint deadF).body = Px.exStmts sameHint deadF.body := rfl
      rw [this]
      simp [deadF, Px.exStmts, Px.exStmt, Px.exZ, Px.exZs, Px.exF, Px.exB, ZStmt.ArgsUsedL, ZStmt.ArgsUsed, Px.fieldDivGuard])
    _ ⟨[.field 2, .field 0], by decide +kernel, .fault (.definitionFault (by decide +kernel))⟩

/-- Remainders are not guarded: an unused `x % 0` fails in the source, and does not after both passes. -/
theorem C45_unused_remainder_forgotten : ∃ f : ZFun (ZMod 97) Unit, ZStmt.ExtractableL f.body ∧ ZStmt.BranchesApartL noIds f.body ∧
    ∃ ins outs, Faults (Oracle.any 97 Unit) f ins .uintDivZero ∧ ¬ Returns (Oracle.any 97 Unit) f ins outs ∧
      Returns (Oracle.any 97 Unit) (eliminateDeadCode noHint (extractPanics sameHint f)) ins outs := by
  refine ⟨⟨[⟨0, .uint 2, true⟩, ⟨1, .uint 2, true⟩],
    [.definition 2 (.uint (.mk 2 none (.rem (.mk 2 none (.ident 0)) (.mk 2 none (.ident 1))))), .ret [.uint (.mk 2 none (.ident 0))]], 1⟩,
    ?_, ?_, [3, 0], [3], ?_, ?_, ?_⟩
  · simp [ZStmt.ExtractableL, ZStmt.Extractable, ZExpr.NoPowZero, UExpr.NoPowZero, UInner.NoPowZero]
  · simp [ZStmt.BranchesApartL, ZStmt.BranchesApart]
  · exact ⟨[.uint 2 3, .uint 2 0], by decide +kernel, .fault (.definitionFault (by decide +kernel))⟩
  · rintro ⟨vs, σ, rs, h1, h2, _⟩
    have hd : decodeArgs [(⟨0, .uint 2, true⟩ : ZParam), ⟨1, .uint 2, true⟩] [(3 : ZMod 97), 0] = some [.uint 2 3, .uint 2 0] := by decide +kernel
    change decodeArgs [(⟨0, .uint 2, true⟩ : ZParam), ⟨1, .uint 2, true⟩] [(3 : ZMod 97), 0] = some vs at h1
    rw [hd] at h1
    cases h1
    cases h2 with
    | cons h3 _ =>
      cases h3 with
      | definition h3 =>
        have hne : ∀ v, evalZ (initState (⟨[⟨0, .uint 2, true⟩, ⟨1, .uint 2, true⟩], [], 1⟩ : ZFun (ZMod 97) Unit) [.uint 2 3, .uint 2 0]).env
          (.uint (.mk 2 none (.rem (.mk 2 none (.ident 0)) (.mk 2 none (.ident 1))))) ≠ .ok v := by
          have : evalZ (initState (⟨[⟨0, .uint 2, true⟩, ⟨1, .uint 2, true⟩], [], 1⟩ : ZFun (ZMod 97) Unit) [.uint 2 3, .uint 2 0]).env
            (.uint (.mk 2 none (.rem (.mk 2 none (.ident 0)) (.mk 2 none (.ident 1))))) = .error .uintDivZero := by decide +kernel
          intro v h
          rw [this] at h
          cases h
        exact hne _ h3
  · refine ⟨[.uint 2 3, .uint 2 0], _, [.uint 2 3], by decide +kernel, ExecL.cons (.ret (vs := [.uint 2 3]) (by decide +kernel)) .nil, rfl, by decide +kernel⟩

/-- A bit decomposition that is not used is a range check in the source; it is removed. -/
theorem C45_unused_range_check_removed : ∃ f : ZFun (ZMod 97) Unit, ZStmt.BranchesApartL noIds f.body ∧
    ∃ ins outs, (¬ ∃ o, Returns (Oracle.any 97 Unit) f ins o) ∧ Returns (Oracle.any 97 Unit) (eliminateDeadCode noHint f) ins outs := by
  refine ⟨⟨[⟨0, .field, true⟩], [.multiDef [1, 2] .unpack [2] [.field (.ident 0)], .ret [.field (.ident 0)]], 1⟩, ?_, [5], [5], ?_, ?_⟩
  · simp [ZStmt.BranchesApartL, ZStmt.BranchesApart]
  · rintro ⟨o, vs, σ, rs, h1, h2, _⟩
    have hd : decodeArgs [(⟨0, .field, true⟩ : ZParam)] [(5 : ZMod 97)] = some [.field 5] := by decide +kernel
    change decodeArgs [(⟨0, .field, true⟩ : ZParam)] [(5 : ZMod 97)] = some vs at h1
    rw [hd] at h1
    cases h1
    cases h2 with
    | cons h3 _ =>
      cases h3 with
      | multiDef h4 h5 h6 =>
        have he : evalZs (initState (⟨[⟨0, .field, true⟩], [], 1⟩ : ZFun (ZMod 97) Unit) [.field 5]).env [.field (.ident 0)] = .ok [.field 5] := by decide +kernel
        change evalZs (initState (⟨[⟨0, .field, true⟩], [], 1⟩ : ZFun (ZMod 97) Unit) [.field 5]).env [.field (.ident 0)] = .ok _ at h4
        rw [he] at h4
        cases h4
        cases h5 with
        | unpack _ _ bl h7 =>
          obtain ⟨h8, h9⟩ := h7
          match bl, h8 with
          | [a, b], _ =>
            have hn : ∀ a b : Bool, ((natBE [a, b] : ℕ) : ZMod 97) ≠ 5 := by decide +kernel
            exact hn a b h9
  · refine ⟨[.field 5], _, [.field 5], by decide +kernel, ExecL.cons (.ret (vs := [.field 5]) (by decide +kernel)) .nil, rfl, by decide +kernel⟩

end Zok
