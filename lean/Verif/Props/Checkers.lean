import Verif.Lemmas.Checkers
import Verif.Model.UintOpt

/-
C52: the checks of constant arguments (`ConstantArgumentChecker`, `check .args`) and of literal indices (`OutOfBoundsChecker`, `check .bounds`). `none` is an error.
-/

set_option linter.unusedSectionVars false
set_option linter.unusedSimpArgs false

namespace Zok.Typed
open Abi
variable {F : Type}

/-- **C52** (constant arguments). The check accepts a function exactly if all integers are shifted by literals, except in arguments of embedded functions other than
the comparison of bits with a constant and in assignees of calls, and if these comparisons are with constants. -/
theorem C52_arguments_iff (f : TFun F) : check .args f = some f ↔
    ∀ s ∈ f.body, (∀ e ∈ s.exprs argsCalls, ∀ e' ∈ e.subs true, ShiftByLiteral e') ∧ CompareConstant s := by
  classical
  rw [check, checkStmts_spec f.body (P := fun s => AllGood .args (subsL true (s.exprs argsCalls)) ∧ CompareConstant s) (fun s _ => checkStmt_args s)]
  simp only [allGood_exprs, GoodCheck]
  split_ifs with h
  · simp only [Option.bind_eq_bind, Option.bind_some, true_iff]
    exact h
  · simp only [Option.bind_eq_bind, Option.bind_none, reduceCtorEq, false_iff]
    exact h

/-- **C52** (literal indices). The check accepts a well-typed function exactly if all literal indices are in bounds, in assignees and in all expressions which are not
below of a select. -/
theorem C52_bounds_iff {f : TFun F} (hw : f.Wt) : check .bounds f = some f ↔
    ∀ s ∈ f.body, (∀ e ∈ s.exprs allCalls, ∀ e' ∈ e.subs false, LiteralInBounds e') ∧ s.AssigneeInBounds := by
  classical
  rw [check, checkStmts_spec f.body (P := fun s => AllGood .bounds (subsL false (s.exprs allCalls)) ∧ s.AssigneeInBounds)
    (fun s hs => checkStmt_bounds s (hw.body s hs))]
  simp only [allGood_exprs, GoodCheck]
  split_ifs with h
  · simp only [Option.bind_eq_bind, Option.bind_some, true_iff]
    exact h
  · simp only [Option.bind_eq_bind, Option.bind_none, reduceCtorEq, false_iff]
    exact h

/-- **C52** (nothing is changed). A function which is accepted is the result. -/
theorem C52_unchanged {f g : TFun F} (hw : f.Wt) (k : Checker) (h : check k f = some g) : g = f := by
  classical
  cases k with
  | args =>
    rw [check, checkStmts_spec f.body (P := fun s => AllGood .args (subsL true (s.exprs argsCalls)) ∧ CompareConstant s) (fun s _ => checkStmt_args s)] at h
    split_ifs at h
    · simpa using h.symm
    · simp at h
  | bounds =>
    rw [check, checkStmts_spec f.body (P := fun s => AllGood .bounds (subsL false (s.exprs allCalls)) ∧ s.AssigneeInBounds)
    (fun s hs => checkStmt_bounds s (hw.body s hs))] at h
    split_ifs at h
    · simpa using h.symm
    · simp at h

section
variable {p : ℕ} {Z : Type} [Fact p.Prime] {O : Oracle p Z}

/-- **C52** (only useless functions are rejected). A well-typed function which is rejected because of a literal index out of bounds returns nothing, on any
arguments. -/
theorem C52_rejected_never_returns {f : TFun (ZMod p)} (hw : f.Wt) (h : check .bounds f = none) (args : List (AVal (ZMod p))) (out : AVal (ZMod p)) :
    ¬ ReturnsT O f args out := by
  rintro ⟨_, σ, h1, _⟩
  have h2 := execs_good hw.body h1
  have h3 : check .bounds f = some f := by
    refine (C52_bounds_iff hw).2 fun s hs => ?_
    have := h2 s hs
    rw [allGood_exprs] at this
    exact this
  rw [h] at h3
  cases h3

/-! ### Examples, and what the checks miss -/

/-- ```
def main(u32 x, u32[2] a, bool[2] c) -> u32 {
    bool b = bit_array_le(c, [true, false]);
    a[1] = a[0] << 3;
    return a[x];
}
``` -/
def chkF : TFun (ZMod p) where
  params := [⟨0, .uint .b32, true⟩, ⟨1, .array 2 (.uint .b32), true⟩, ⟨2, .array 2 .bool, true⟩]
  ret := .uint .b32
  body := [.embed (.ident 3 .bool) .bitArrayLe [2] [.ident 2 (.array 2 .bool), .array .bool 2 [.expr (.bval true), .expr (.bval false)]],
    .definition (.select (.ident 1 (.array 2 (.uint .b32))) (.uval .b32 1))
      (.ubin .b32 .shl (.select (.uint .b32) (.ident 1 (.array 2 (.uint .b32))) (.uval .b32 0)) (.uval .b32 3)),
    .ret (.select (.uint .b32) (.ident 1 (.array 2 (.uint .b32))) (.ident 0 (.uint .b32)))]

theorem chkF_wt : (chkF (p := p)).Wt where
  params := by simp [chkF, TypeOk, CType.Distinct, CType.Small, primCount]
  ret := by simp [chkF, TypeOk, CType.Distinct, CType.Small, primCount]
  body := by
    simp [chkF, TStmt.Wt, TExpr.Wt, WtL, WtS, spreadCount, TExpr.ty, TAssignee.Wt, TAssignee.ty, embedTy, TypeOk, CType.Distinct, CType.Small, primCount, UW.bits,
      UOp.rightWidth]

/-- The example is accepted by both checks. -/
theorem C52_example : check .args (chkF (p := p)) = some chkF ∧ check .bounds (chkF (p := p)) = some chkF := by
  constructor <;> rfl

/-- `return a[2]` for an array of size 2 is rejected. -/
theorem C52_example_index : check (F := ZMod p) .bounds ⟨[⟨1, .array 2 .field, true⟩], [.ret (.select .field (.ident 1 (.array 2 .field)) (.uval .b32 2))], .field⟩ =
    none := rfl

/-- `return x << y` is rejected. -/
theorem C52_example_shift : check (F := ZMod p) .args ⟨[⟨0, .uint .b32, true⟩, ⟨1, .uint .b32, true⟩],
    [.ret (.ubin .b32 .shl (.ident 0 (.uint .b32)) (.ident 1 (.uint .b32)))], .uint .b32⟩ = none := rfl

/-- `return a[b[2]]` for `u32[2] b`. -/
def nestedF : TFun (ZMod p) where
  params := [⟨0, .array 3 .field, true⟩, ⟨1, .array 2 (.uint .b32), true⟩]
  ret := .field
  body := [.ret (.select .field (.ident 0 (.array 3 .field)) (.select (.uint .b32) (.ident 1 (.array 2 (.uint .b32))) (.uval .b32 2)))]

/-- **C52** (a gap). An index out of bounds inside of an index is accepted, and the flattening of types panics on it. -/
theorem C52_nested_index_panics (nm : SId → ZId) : (nestedF (p := p)).Wt ∧ check .bounds (nestedF (p := p)) = some nestedF ∧
    flatFun (Z := Z) nm (nestedF (p := p)) = none := by
  refine ⟨⟨?_, ?_, ?_⟩, rfl, ?_⟩
  · simp [nestedF, TypeOk, CType.Distinct, CType.Small, primCount]
  · simp [nestedF, TypeOk, CType.Distinct, CType.Small, primCount]
  · simp [nestedF, TStmt.Wt, TExpr.Wt, TExpr.ty, TypeOk, CType.Distinct, CType.Small, primCount, UW.bits]
  · with_unfolding_all rfl

/-- `bool[32] b = u32_to_bits(x << y); return b[0]`. -/
def callF : TFun (ZMod p) where
  params := [⟨0, .uint .b32, true⟩, ⟨1, .uint .b32, true⟩]
  ret := .bool
  body := [.embed (.ident 2 (.array 32 .bool)) (.uToBits 32) [] [.ubin .b32 .shl (.ident 0 (.uint .b32)) (.ident 1 (.uint .b32))],
    .ret (.select .bool (.ident 2 (.array 32 .bool)) (.uval .b32 0))]

/-- **C52** (another gap). A shift by a variable is accepted as the argument of an embedded function. -/
theorem C52_shift_in_call_accepted : (callF (p := p)).Wt ∧ check .args (callF (p := p)) = some callF ∧
    ∃ s ∈ (callF (p := p)).body, ∃ e ∈ s.exprs allCalls, ¬ ShiftByLiteral e := by
  refine ⟨⟨?_, ?_, ?_⟩, rfl, _, List.mem_cons_self, _, List.mem_cons_self, ?_⟩
  · simp [callF, TypeOk, CType.Distinct, CType.Small, primCount]
  · simp [callF, TypeOk, CType.Distinct, CType.Small, primCount]
  · simp [callF, TStmt.Wt, TExpr.Wt, WtL, TExpr.ty, TAssignee.Wt, TAssignee.ty, embedTy, TypeOk, CType.Distinct, CType.Small, primCount, UW.bits, UOp.rightWidth]
  · simp [ShiftByLiteral]

end

end Zok.Typed
