import Verif.Props.TypedPropagator
import Verif.Spec.Curves
import Verif.Spec.TestField

/-
C54: an example, and where compile time and run time differ.
-/

set_option linter.unusedSectionVars false
set_option linter.unusedSimpArgs false

namespace Zok.Typed
open Abi

/-! ### A function that meets the hypotheses -/

/-- ```
def main(field x) -> field {
    u32[4] mut a = [1, 2, ...[3; 2]];
    a[1] = 7;
    assert(a[1] == 7);
    field y = a[2] == 3 ? x + 2 * 3 : x;
    bool[8] b = u8_to_bits(5);
    field z = b[7] ? y : 0;
    return z;
}
``` -/
def cpF : TFun (ZMod M127) where
  params := [⟨0, .field, true⟩]
  ret := .field
  body := [
    .definition (.ident 1 (.array 4 (.uint .b32))) (.array (.uint .b32) 4 [.expr (.uval .b32 1), .expr (.uval .b32 2), .spread (.repeat_ (.uint .b32) 2 (.uval .b32 3) (.uval .b32 2))]),
    .definition (.select (.ident 1 (.array 4 (.uint .b32))) (.uval .b32 1)) (.uval .b32 7),
    .assertion (.eq (.select (.uint .b32) (.ident 1 (.array 4 (.uint .b32))) (.uval .b32 1)) (.uval .b32 7)) .selectRangeCheck,
    .definition (.ident 2 .field) (.cond .field (.eq (.select (.uint .b32) (.ident 1 (.array 4 (.uint .b32))) (.uval .b32 2)) (.uval .b32 3))
      (.fbin .add (.ident 0 .field) (.fbin .mult (.fval 2) (.fval 3))) (.ident 0 .field)),
    .embed (.ident 3 (.array 8 .bool)) (.uToBits 8) [] [.uval .b8 5],
    .definition (.ident 4 .field) (.cond .field (.select .bool (.ident 3 (.array 8 .bool)) (.uval .b32 7)) (.ident 2 .field) (.fval 0)),
    .ret (.ident 4 .field)]

/-- `field y = x + 6; field z = y; return z;` -/
def cpG : TFun (ZMod M127) where
  params := [⟨0, .field, true⟩]
  ret := .field
  body := [
    .definition (.ident 2 .field) (.fbin .add (.ident 0 .field) (.fval 6)),
    .definition (.ident 4 .field) (.ident 2 .field),
    .ret (.ident 4 .field)]

theorem cpF_propagated : propagateT cpF = .ok cpG := by with_unfolding_all rfl

theorem cpF_wt : cpF.Wt where
  params := by simp [cpF, TypeOk, CType.Distinct, CType.Small, SmallL, SmallM, primCount]
  ret := by simp [cpF, TypeOk, CType.Distinct, CType.Small, SmallL, SmallM, primCount]
  body := by
    simp [cpF, TStmt.Wt, TAssignee.Wt, TExpr.Wt, WtS, WtL, spreadCount, TAssignee.ty, TExpr.ty, TypeOk, CType.Distinct, CType.Small, SmallL, SmallM, primCount, UW.bits, embedTy]

theorem cpF_args : ∀ s ∈ cpF.body, s.ArgsTyped := by
  simp [cpF, TStmt.ArgsTyped, embedArgs, TExpr.ty]
  rfl

theorem cpF_free : ∀ s ∈ cpF.body, s.OracleFree := by simp [cpF, TStmt.OracleFree]

/-- All hypotheses are met: the propagated function returns `x + 6`, and so does the source. -/
example {Z : Type} (O : Oracle M127 Z) : Replaces O cpF cpG := C54_same_function cpF_wt cpF_args (fun s hs => C54_unpack_free (cpF_free s hs)) cpF_propagated

theorem cpG_returns {Z : Type} (O : Oracle M127 Z) (x : ZMod M127) : ReturnsT O cpG [.field x] (.field (x + 6)) := by
  refine ⟨by simp [cpG, HasTypeL, HasType], _, .cons (.definition (v := .field (x + 6)) (u := .field (x + 6)) ?_ ?_)
    (.cons (.definition (v := .field (x + 6)) (u := .field (x + 6)) ?_ ?_) (.cons (.ret (v := .field (x + 6)) ?_) .nil)), rfl⟩
  · simp [evalT, initT, cpG, TState.setAll, TState.set, HasType, FOp.eval, asField, bind, Except.bind]
  · simp [setA, HasType]
  · simp [evalT, initT, cpG, TState.setAll, TState.set, HasType, TAssignee.root]
  · simp [setA, HasType]
  · simp [evalT, initT, cpG, TState.setAll, TState.set, HasType, TAssignee.root]

/-! ### Decompositions into more bits than the modulus has -/

/-- **C54**, the exception: a field element is decomposed at compile time into more bits than the modulus has. If the constant is at least `2^(n-1) mod p`, then the
highest bit is set; at run time the solver never sets it. -/
theorem C54_wide_unpack_differs {p : ℕ} [Fact p.Prime] {n : ℕ} (hn : Fld.requiredBits p ≤ n) {x : ZMod p} (hx : ((2 : ZMod p) ^ n).val ≤ x.val) :
    (unpackLoop (n + 1) x).1.head? = some true ∧ (bitsBE (n + 1) x.val).head? = some false := by
  refine ⟨by simp only [unpackLoop, if_pos hx, List.head?_cons], ?_⟩
  have h1 : x.val < p := ZMod.val_lt x
  have h2 : p < 2 ^ n := lt_of_lt_of_le (Nat.lt_size_self p) (Nat.pow_le_pow_right (by norm_num) hn)
  simp only [bitsBE, List.head?_cons, Option.some.injEq]
  exact Nat.testBit_eq_false_of_lt (by omega)

/-- In the scalar field of Bn128 this is the case for `unpack256(-1)` of the standard library. -/
theorem C54_unpack256_differs : (unpackLoop 256 (-1 : ZMod Bn128)).1.head? = some true ∧ (bitsBE 256 (-1 : ZMod Bn128).val).head? = some false := by
  refine C54_wide_unpack_differs (by decide +kernel) ?_
  decide +kernel

/-- ```
def main() -> bool[4] {
    bool[4] b = unpack::<4>(1);
    return b;
}
``` -/
def wuF : TFun (ZMod 7) where
  params := []
  ret := .array 4 .bool
  body := [.embed (.ident 0 (.array 4 .bool)) .unpack [4] [.fval 1], .ret (.ident 0 (.array 4 .bool))]

/-- `return [true, false, false, false];` -/
def wuG : TFun (ZMod 7) where
  params := []
  ret := .array 4 .bool
  body := [.ret (boolArray 4 [true, false, false, false])]

/-- **C54**, the exception, for a function: in the field with 7 elements, four bits of 1 are 0001 at run time and 1000 at compile time. -/
theorem C54_wide_unpack_changes_result {Z : Type} (sem : SolverSem (ZMod 7) Z) : propagateT wuF = .ok wuG ∧
    ReturnsT (Oracle.honest sem) wuF [] (.array [.bool false, .bool false, .bool false, .bool true]) ∧
    (∀ out, ReturnsT (Oracle.honest sem) wuG [] out ↔ out = .array [.bool true, .bool false, .bool false, .bool false]) := by
  have h1 : evalT (p := 7) (initT wuG []).env (boolArray 4 [true, false, false, false]) = .ok (.array [.bool true, .bool false, .bool false, .bool false]) := by
    with_unfolding_all rfl
  refine ⟨by with_unfolding_all rfl, ?_, fun out => ⟨?_, ?_⟩⟩
  · refine ⟨by simp [wuF, HasTypeL], _, .cons (.embed (v := .array [.bool false, .bool false, .bool false, .bool true])
      (u := .array [.bool false, .bool false, .bool false, .bool true]) (vs := [.field 1]) (t := .array 4 .bool) ?_ rfl ?_ ?_ ?_)
      (.cons (.ret (v := .array [.bool false, .bool false, .bool false, .bool true]) ?_) .nil), rfl⟩
    · with_unfolding_all rfl
    · simp [HasType]
    · exact EmbedRes.unpack 4 1 [false, false, false, true] ⟨by decide, by decide⟩
    · simp [setA, HasType]
    · simp [evalT, TState.set, TAssignee.root, HasType]
  · rintro ⟨-, σ, hx, ho⟩
    cases hx with
    | cons k1 k2 =>
      cases k2
      cases k1 with
      | ret k =>
        rw [h1] at k
        cases k
        exact (Option.some.inj ho).symm
  · rintro rfl
    exact ⟨by simp [wuG, HasTypeL], _, .cons (.ret h1) .nil, rfl⟩

/-! ### Programs which are not accepted -/

/-- ```
def main() -> bool[2] {
    bool[2] b = [true; 4][1..3];
    return b;
}
``` -/
def slF : TFun (ZMod M127) where
  params := []
  ret := .array 2 .bool
  body := [.definition (.ident 0 (.array 2 .bool)) (.slice .bool 2 (.repeat_ .bool 4 (.bval true) (.uval .b32 4)) (.uval .b32 1) (.uval .b32 3)), .ret (.ident 0 (.array 2 .bool))]

/-- **C54**, not accepted: the propagation panics on a constant slice of an array which is not written as a list of its elements, here `[true; 4][1..3]`, which is an
array with two elements. -/
theorem C54_slice_panics {Z : Type} (O : Oracle M127 Z) : slF.Wt ∧ propagateT slF = .error .nestedSlice ∧ ReturnsT O slF [] (.array [.bool true, .bool true]) := by
  refine ⟨⟨?_, ?_, ?_⟩, by with_unfolding_all rfl, by simp [slF, HasTypeL], _, .cons (.definition (v := .array [.bool true, .bool true]) (u := .array [.bool true, .bool true]) ?_ ?_)
    (.cons (.ret (v := .array [.bool true, .bool true]) ?_) .nil), rfl⟩
  · simp [slF]
  · simp [slF, TypeOk, CType.Distinct, CType.Small, SmallL, SmallM, primCount]
  · simp [slF, TStmt.Wt, TAssignee.Wt, TExpr.Wt, TAssignee.ty, TExpr.ty, TypeOk, CType.Distinct, CType.Small, SmallL, SmallM, primCount, UW.bits]
  · with_unfolding_all rfl
  · simp [setA, HasType]
  · simp [evalT, TState.set, TAssignee.root, HasType]

/-- ```
def main() -> u32 {
    u32 a = 1 << 128;
    return a;
}
``` -/
def shF : TFun (ZMod M127) where
  params := []
  ret := .uint .b32
  body := [.definition (.ident 0 (.uint .b32)) (.ubin .b32 .shl (.uval .b32 1) (.uval .b32 128)), .ret (.ident 0 (.uint .b32))]

/-- **C54**, not accepted: the propagation panics on a constant shift by 128 or more. The result of the shift is 0. -/
theorem C54_shift_panics {Z : Type} (O : Oracle M127 Z) : shF.Wt ∧ propagateT shF = .error .shift ∧ ReturnsT O shF [] (.uint .b32 0) := by
  refine ⟨⟨?_, ?_, ?_⟩, by with_unfolding_all rfl, by simp [shF, HasTypeL], _, .cons (.definition (v := .uint .b32 0) (u := .uint .b32 0) ?_ ?_)
    (.cons (.ret (v := .uint .b32 0) ?_) .nil), rfl⟩
  · simp [shF]
  · simp [shF, TypeOk, CType.Distinct, CType.Small, SmallL, SmallM, primCount]
  · simp [shF, TStmt.Wt, TAssignee.Wt, TExpr.Wt, TAssignee.ty, TExpr.ty, TypeOk, CType.Distinct, CType.Small, SmallL, SmallM, primCount, UW.bits, UOp.rightWidth]
  · with_unfolding_all rfl
  · simp [setA, HasType, UW.bits]
  · simp [evalT, TState.set, TAssignee.root, HasType, UW.bits]

/-- ```
def main(field x) -> field {
    field y = 0;
    return x / y;
}
``` -/
def dzF : TFun (ZMod M127) where
  params := [⟨0, .field, true⟩]
  ret := .field
  body := [.definition (.ident 1 .field) (.fval 0), .ret (.fbin .div (.ident 0 .field) (.ident 1 .field))]

/-- A rejected function: it returns nothing. -/
example {Z : Type} (O : Oracle M127 Z) (args : List (AVal (ZMod M127))) (out : AVal (ZMod M127)) : propagateT dzF = .error .divisionByZero ∧ ¬ ReturnsT O dzF args out := by
  have h : propagateT dzF = .error .divisionByZero := by with_unfolding_all rfl
  refine ⟨h, C54_rejected ⟨?_, ?_, ?_⟩ ?_ ?_ h trivial args out⟩
  · simp [dzF, TypeOk, CType.Distinct, CType.Small, SmallL, SmallM, primCount]
  · simp [dzF, TypeOk, CType.Distinct, CType.Small, SmallL, SmallM, primCount]
  · simp [dzF, TStmt.Wt, TAssignee.Wt, TExpr.Wt, TAssignee.ty, TExpr.ty, TypeOk, CType.Distinct, CType.Small, SmallL, SmallM, primCount]
  · simp [dzF, TStmt.ArgsTyped]
  · simp [dzF, TStmt.UnpackOnly]

end Zok.Typed
