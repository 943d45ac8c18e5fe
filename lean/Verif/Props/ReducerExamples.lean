import Verif.Props.Reducer
import Verif.Spec.Curves
import Verif.Spec.TestField

/-
C56: an example with a loop, a generic function and a constant index; and a program which the reducer breaks.
-/

set_option linter.unusedSectionVars false
set_option linter.unusedSimpArgs false

namespace Zok.Typed
open Abi

/-! ### A program that meets the hypotheses -/

/-- ```
def pow<N>(field x) -> field {      // instance N = 2
    field mut r = x;
    for u32 i in 1..N {
        r = r * x;
    }
    return r;
}
``` -/
def rdPow : Inst (ZMod M127) where
  generics := [(3, 2)]
  params := [0]
  body := [
    .simple (.definition (.ident 1 .field) (.ident 0 .field)),
    .for_ 2 (.uval .b32 1) (.ident 3 (.uint .b32)) [.simple (.definition (.ident 1 .field) (.fbin .mult (.ident 1 .field) (.ident 0 .field)))]]
  ret := .ident 1 .field

/-- The functions of the program: only `pow`. -/
def rdP : Program (ZMod M127) := fun key ns ts t => if key = 0 ∧ ns = [2] ∧ ts = [.field] ∧ t = .field then some (.here rdPow) else none

/-- ```
def main(field x, private field y) -> field {
    field[2] mut a = [x, y];
    u32 n = 2;
    for u32 i in 0..2 {
        a[i] = pow::<n>(a[i]);
    }
    assert(a[0] == 9);
    return a[1];
}
``` -/
def rdF : SFun (ZMod M127) where
  params := [⟨0, .field, false⟩, ⟨1, .field, true⟩]
  ret := .field
  body := [
    .simple (.definition (.ident 2 (.array 2 .field)) (.array .field 2 [.expr (.ident 0 .field), .expr (.ident 1 .field)])),
    .simple (.definition (.ident 3 (.uint .b32)) (.uval .b32 2)),
    .for_ 4 (.uval .b32 0) (.uval .b32 2) [
      .call (.select (.ident 2 (.array 2 .field)) (.ident 4 (.uint .b32))) .field 0 [.ident 3 (.uint .b32)] [.select .field (.ident 2 (.array 2 .field)) (.ident 4 (.uint .b32))]],
    .simple (.assertion (.eq (.select .field (.ident 2 (.array 2 .field)) (.uval .b32 0)) (.fval 9)) .selectRangeCheck),
    .simple (.ret (.select .field (.ident 2 (.array 2 .field)) (.uval .b32 1)))]

/-- ```
a = [x, y];
x1 = a[0]; r1 = x1; r1' = r1 * x1; a[0] = r1';
x2 = a[1]; r2 = x2; r2' = r2 * x2; a[1] = r2';
assert(a[0] == 9);
return a[1];
``` -/
def rdG : TFun (ZMod M127) where
  params := [⟨nid 0 1 0, .field, false⟩, ⟨nid 0 2 0, .field, true⟩]
  ret := .field
  body := [
    .definition (.ident (nid 0 3 0) (.array 2 .field)) (.array .field 2 [.expr (.ident (nid 0 1 0) .field), .expr (.ident (nid 0 2 0) .field)]),
    .definition (.ident (nid 1 1 0) .field) (.select .field (.ident (nid 0 3 0) (.array 2 .field)) (.uval .b32 0)),
    .definition (.ident (nid 1 2 0) .field) (.ident (nid 1 1 0) .field),
    .definition (.ident (nid 1 2 1) .field) (.fbin .mult (.ident (nid 1 2 0) .field) (.ident (nid 1 1 0) .field)),
    .definition (.select (.ident (nid 0 3 0) (.array 2 .field)) (.uval .b32 0)) (.ident (nid 1 2 1) .field),
    .definition (.ident (nid 2 1 0) .field) (.select .field (.ident (nid 0 3 0) (.array 2 .field)) (.uval .b32 1)),
    .definition (.ident (nid 2 2 0) .field) (.ident (nid 2 1 0) .field),
    .definition (.ident (nid 2 2 1) .field) (.fbin .mult (.ident (nid 2 2 0) .field) (.ident (nid 2 1 0) .field)),
    .definition (.select (.ident (nid 0 3 0) (.array 2 .field)) (.uval .b32 1)) (.ident (nid 2 2 1) .field),
    .assertion (.eq (.select .field (.ident (nid 0 3 0) (.array 2 .field)) (.uval .b32 0)) (.fval 9)) .selectRangeCheck,
    .ret (.select .field (.ident (nid 0 3 0) (.array 2 .field)) (.uval .b32 1))]

theorem rdF_reduced : reduce rdP 10 rdF = .ok rdG := by with_unfolding_all rfl

theorem rdP_some {key : ℕ} {ns : List ℕ} {ts : List CType} {t : CType} {c : Callee (ZMod M127)} (h : rdP key ns ts t = some c) :
    key = 0 ∧ ns = [2] ∧ ts = [.field] ∧ t = .field ∧ c = .here rdPow := by
  simp only [rdP] at h
  split at h
  · rename_i h0
    cases h
    exact ⟨h0.1, h0.2.1, h0.2.2.1, h0.2.2.2, rfl⟩
  · cases h

theorem rdP_wt : rdP.Wt := by
  intro key ns ts t c h
  obtain ⟨-, -, rfl, rfl, rfl⟩ := rdP_some h
  simp [Callee.Wt, rdPow, WtSs, SStmt.Wt, TStmt.Wt, TAssignee.Wt, TExpr.Wt, TAssignee.ty, TExpr.ty, TypeOk, CType.Distinct, CType.Small, primCount, UW.bits, NoRetSs, SStmt.NoRet, TExpr.MayDefine,
    TExpr.NoSlice]

theorem rdP_unpack (O : Oracle M127 Unit) : rdP.UnpackOnly O ∧ rdP.UnpackSome O := by
  constructor <;> intro key ns ts t n h <;> exact absurd (rdP_some h).2.2.2.2 (by simp)

theorem rdF_wt : rdF.Wt where
  params := by simp [rdF, TypeOk, CType.Distinct, CType.Small, primCount]
  ret := by simp [rdF, TypeOk, CType.Distinct, CType.Small, primCount]
  body := by
    simp [rdF, WtSs, SStmt.Wt, TStmt.Wt, TAssignee.Wt, TExpr.Wt, WtS, spreadCount, TAssignee.ty, TExpr.ty, TypeOk, CType.Distinct, CType.Small, primCount, UW.bits, TExpr.MayDefine, TExpr.NoSlice,
      NoSliceS]

theorem rdPow_exec (O : Oracle M127 Unit) (x : ZMod M127) : ∃ σ, ExecSs O rdP (calleeState rdPow [.field x]) rdPow.body (.ok σ) ∧ evalT σ.env rdPow.ret = .ok (.field (x * x)) := by
  refine ⟨_, .cons (.simple (.definition (v := .field x) ?_ rfl)) (.cons (.loop (l := 1) (h := 2) rfl ?_ (.step (.cons (.simple (.definition (v := .field (x * x)) ?_ rfl)) .nil) .done)) .nil), ?_⟩
  · simp [evalT, calleeState, rdPow, TState.setAll, TState.set, HasType]
  · simp [evalT, calleeState, rdPow, TState.setAll, TState.set, HasType, TAssignee.root, UW.bits]
  · simp [evalT, calleeState, rdPow, TState.setAll, TState.set, HasType, TAssignee.root, asField, FOp.eval, bind, Except.bind]
  · simp [evalT, rdPow, TState.set, HasType, TAssignee.root]

theorem rdCall (O : Oracle M127 Unit) {σ : TState M127} {e : TExpr (ZMod M127)} {x : ZMod M127} (h3 : σ.env 3 = some (.uint .b32 2)) (ht : e.ty = .field) (he : evalT σ.env e = .ok (.field x)) :
    ExecCall O rdP σ .field 0 [.ident 3 (.uint .b32)] [e] (.ok (.field (x * x))) := by
  obtain ⟨σ', h1, h2⟩ := rdPow_exec O x
  rw [← h2]
  refine .here (ns := [2]) (vs := [.field x]) ?_ ?_ ?_ h1
  · simp [evalL, evalT, h3, HasType, UW.bits, bind, Except.bind]
  · simp [evalL, he, bind, Except.bind]
  · simp [rdP, ht]

theorem rdF_loop (O : Oracle M127 Unit) (x y : ZMod M127) :
    ∃ σ, ExecSs O rdP (initS rdF [.field x, .field y]) (rdF.body.take 3) (.ok σ) ∧ σ.env 2 = some (.array [.field (x * x), .field (y * y)]) := by
  refine ⟨_, .cons (.simple (.definition (v := .array [.field x, .field y]) ?_ rfl)) (.cons (.simple (.definition (v := .uint .b32 2) rfl rfl))
    (.cons (.loop (l := 0) (h := 2) rfl rfl (.step (.cons (.call (u := .array [.field (x * x), .field y]) (rdCall O (x := x) ?_ rfl ?_) ?_) .nil)
      (.step (.cons (.call (u := .array [.field (x * x), .field (y * y)]) (rdCall O (x := y) ?_ rfl ?_) ?_) .nil) .done))) .nil)), ?_⟩
  all_goals simp [evalT, evalS, initS, rdF, TState.setAll, TState.set, HasType, HasTypeL, TAssignee.root, bind, Except.bind, setA, getA, asArray, asUint, selectVal, UW.bits]

theorem rdF_returns (O : Oracle M127 Unit) (y : ZMod M127) : ReturnsS O rdP rdF [.field 3, .field y] (.field (y * y)) := by
  have h9 : (3 : ZMod M127) * 3 = 9 := by decide +kernel
  refine ⟨by simp [rdF, HasTypeL, HasType], ?_⟩
  obtain ⟨σ, h1, h2⟩ := rdF_loop O 3 y
  refine ⟨{ σ with out := some (.field (y * y)) }, ?_, rfl⟩
  rw [show rdF.body = rdF.body.take 3 ++ rdF.body.drop 3 from rfl, execSs_append]
  refine .inr ⟨σ, h1, .cons (.simple (.assertOk ?_)) (.cons (.simple (.ret ?_)) .nil)⟩
  all_goals simp [evalT, evalS, h2, h9, HasType, HasTypeL, bind, Except.bind, asArray, asUint, selectVal, UW.bits]

theorem rdF_fails (O : Oracle M127 Unit) (y : ZMod M127) : FaultsS O rdP rdF [.field 2, .field y] .assertionFailed := by
  have h4 : (2 : ZMod M127) * 2 ≠ 9 := by decide +kernel
  refine ⟨by simp [rdF, HasTypeL, HasType], ?_⟩
  obtain ⟨σ, h1, h2⟩ := rdF_loop O 2 y
  rw [show rdF.body = rdF.body.take 3 ++ rdF.body.drop 3 from rfl, execSs_append]
  refine .inr ⟨σ, h1, .fault (.simple (.assertFailed ?_))⟩
  simp [evalT, evalS, h2, h4, HasType, HasTypeL, bind, Except.bind, asArray, asUint, selectVal, UW.bits]

/-- All hypotheses are met: on `3` and `y` the program returns `y * y`, and so does the reduced function. -/
example (O : Oracle M127 Unit) (y : ZMod M127) : ReturnsT O rdG [.field 3, .field y] (.field (y * y)) :=
  C56_results rdP_wt rdF_wt (rdP_unpack O).1 rdF_reduced (rdF_returns O y)

/-- On `2` and `y` the assertion of the program fails, and so does the one of the reduced function. -/
example (O : Oracle M127 Unit) (y : ZMod M127) : AssertFailsT O rdG [.field 2, .field y] := C56_assertions rdP_wt rdF_wt (rdP_unpack O).1 rdF_reduced (rdF_fails O y)

/-! ### A program which the reducer breaks -/

/-- ```
def main(field[2] mut a, field x) -> field[2] {
    a = [...a[1..2], x];
    return a;
}
``` -/
def selfF : SFun (ZMod M127) where
  params := [⟨0, .array 2 .field, true⟩, ⟨1, .field, true⟩]
  ret := .array 2 .field
  body := [
    .simple (.definition (.ident 0 (.array 2 .field)) (.array .field 2 [.spread (.slice .field 1 (.ident 0 (.array 2 .field)) (.uval .b32 1) (.uval .b32 2)), .expr (.ident 1 .field)])),
    .simple (.ret (.ident 0 (.array 2 .field)))]

/-- `a1 = [...a1[1..2], x]; return a1;`: the right side reads the version of `a` which is defined by the statement. -/
def selfG : TFun (ZMod M127) where
  params := [⟨nid 0 1 0, .array 2 .field, true⟩, ⟨nid 0 2 0, .field, true⟩]
  ret := .array 2 .field
  body := [
    .definition (.ident (nid 0 1 1) (.array 2 .field))
      (.array .field 2 [.spread (.slice .field 1 (.ident (nid 0 1 1) (.array 2 .field)) (.uval .b32 1) (.uval .b32 2)), .expr (.ident (nid 0 2 0) .field)]),
    .ret (.ident (nid 0 1 1) (.array 2 .field))]

theorem selfF_reduced : reduce (fun _ _ _ _ => none) 10 selfF = .ok selfG := by with_unfolding_all rfl

/-- **C56**, a bug in the code: a variable which is assigned an expression with a slice of itself. The program returns `[b, x]`, but the reduced function cannot return
anything: it reads a variable which is not defined yet. All hypotheses of C56 are met except that the expression may not read `a` (`MayDefine`). -/
theorem C56_bug_slice (O : Oracle M127 Unit) (a b x : ZMod M127) : reduce (fun _ _ _ _ => none) 10 selfF = .ok selfG ∧
    ReturnsS O (fun _ _ _ _ => none) selfF [.array [.field a, .field b], .field x] (.array [.field b, .field x]) ∧
    ∀ args out, ¬ ReturnsT O selfG args out := by
  refine ⟨selfF_reduced, ⟨by simp [selfF, HasTypeL, HasType], _, .cons (.simple (.definition (v := .array [.field b, .field x]) ?_ rfl)) (.cons (.simple (.ret (v := .array [.field b, .field x]) ?_)) .nil), rfl⟩, ?_⟩
  · simp [evalT, evalS, selfF, initS, TState.setAll, TState.set, HasType, HasTypeL, bind, Except.bind, asArray, asUint, selectVal, UW.bits]
  · simp [evalT, selfF, initS, TState.setAll, TState.set, HasType, HasTypeL, TAssignee.root]
  · rintro args out ⟨ht, σ, hx, -⟩
    match args, ht with
    | [v, w], ht =>
      cases hx with
      | cons h _ =>
        cases h with
        | definition he _ =>
          have hn : (initT selfG [v, w]).env (nid 0 1 1) = none := by
            have h1 : nid 0 1 1 ≠ nid 0 1 0 := by decide +kernel
            have h2 : nid 0 1 1 ≠ nid 0 2 0 := by decide +kernel
            simp [initT, selfG, TState.setAll, TState.set, h1, h2]
          simp [evalT, evalS, hn, bind, Except.bind] at he
    | [], ht => simp [selfG, HasTypeL] at ht
    | [_], ht => simp [selfG, HasTypeL] at ht
    | _ :: _ :: _ :: _, ht => simp [selfG, HasTypeL] at ht

end Zok.Typed
