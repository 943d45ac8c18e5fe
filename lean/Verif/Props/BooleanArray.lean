import Verif.Lemmas.BooleanArrayStmt

/-
C51: comparisons of arrays of booleans.
-/

set_option linter.unusedSectionVars false
set_option linter.unusedSimpArgs false

namespace Zok.Typed
open Abi
variable {p : ℕ} {Z : Type} [Fact p.Prime] {O : Oracle p Z} {f : TFun (ZMod p)}

/-- **C51** (same function). The function with packed comparisons returns what the source returns; it returns nothing else unless the source can fail; it fails
only where the source fails; and where an assertion of the source fails, one of its assertions fails. -/
theorem C51_same_function (hw : f.Wt) : Replaces O f (packComparisons f) := packComparisons_replaces hw

/-- **C51** (equivalence). On arguments on which the source does not fail, both functions return the same. -/
theorem C51_iff (hw : f.Wt) {args : List (AVal (ZMod p))} (hf : ∀ e, ¬ FaultsT O f args e) :
    (∀ out, ReturnsT O (packComparisons f) args out ↔ ReturnsT O f args out) ∧ ∀ e, ¬ FaultsT O (packComparisons f) args e := by
  have hr : Replaces O f (packComparisons f) := packComparisons_replaces hw
  refine ⟨fun out => ⟨fun h1 => ?_, hr.results args out⟩, fun e h1 => ?_⟩
  · rcases hr.noNewResults args out h1 with h1 | ⟨e, h1⟩
    · exact h1
    · exact absurd h1 (hf e)
  · obtain ⟨e', h1⟩ := hr.noNewFailures args e h1
    exact hf e' h1

open Classical in
/-- **C51** (the comparison). Two arrays of `n` booleans are compared as two arrays of `⌈n / (bits of the modulus - 1)⌉` field elements, and the comparison has the
value it had before. -/
theorem C51_comparison {l r : TExpr (ZMod p)} {n : ℕ} (hw : (TExpr.eq l r).Wt) (hl : l.ty = .array n .bool) :
    ∃ l' r' : TExpr (ZMod p), packE (.eq l r) = .eq l' r' ∧
      l'.ty = .array ((n + (Nat.size p - 1) - 1) / (Nat.size p - 1)) .field ∧ r'.ty = .array ((n + (Nat.size p - 1) - 1) / (Nat.size p - 1)) .field ∧
      ∀ env as bs, evalT env l = .ok (.array as) → evalT env r = .ok (.array bs) → evalT env (packE (.eq l r)) = .ok (.bool (decide (as = bs))) := by
  refine ⟨packArray l n, packArray r n, ?_, ?_, ?_, fun env as bs h1 h2 => ?_⟩
  · simp only [packE, compareE_array hl]
  · rw [packArray_ty, chunks_ceil chunkSize_pos _ _ (by simp)]; simp [Fld.requiredBits]
  · rw [packArray_ty, chunks_ceil chunkSize_pos _ _ (by simp)]; simp [Fld.requiredBits]
  · refine packE_eval _ _ hw ?_
    simp only [evalT, h1, h2, Except.bind, bind]
    simp

/-- **C51** (types). The result is well-typed, has the same signature and no new variables. -/
theorem C51_typed (hw : f.Wt) : (packComparisons f).Wt ∧ (packComparisons f).params = f.params ∧ (packComparisons f).ret = f.ret ∧
    ∀ x ∈ (packComparisons f).vars, x ∈ f.vars :=
  ⟨packComparisons_wt hw, rfl, rfl, packComparisons_vars⟩

/-! ### An example -/

theorem seven_prime : Fact (Nat.Prime 7) := ⟨by norm_num⟩
attribute [local instance] seven_prime

/-- ```
def main(bool[3] a, bool[3] b) -> bool {
    return a == b;
}
``` -/
def cmpF : TFun (ZMod p) where
  params := [⟨0, .array 3 .bool, true⟩, ⟨1, .array 3 .bool, true⟩]
  ret := .bool
  body := [.ret (.eq (.ident 0 (.array 3 .bool)) (.ident 1 (.array 3 .bool)))]

/-- `a[i] ? 2 ** k : 0` -/
def cmpBit (x : TId) (i k : ℕ) : TExpr (ZMod p) :=
  .cond .field (.select .bool (.ident x (.array 3 .bool)) (.uval .b32 i)) (.fubin .pow (.fval 2) (.uval .b32 k)) (.fval 0)

/-- `cmpF` over the field of order 7, where two booleans fit into a field element. -/
def cmpG : TFun (ZMod 7) where
  params := [⟨0, .array 3 .bool, true⟩, ⟨1, .array 3 .bool, true⟩]
  ret := .bool
  body := [.ret (.eq (.array .field 2 [.expr (.fbin .add (cmpBit 0 0 1) (cmpBit 0 1 0)), .expr (cmpBit 0 2 0)])
    (.array .field 2 [.expr (.fbin .add (cmpBit 1 0 1) (cmpBit 1 1 0)), .expr (cmpBit 1 2 0)]))]

theorem size_seven : Fld.requiredBits 7 = 3 := by decide +kernel

theorem cmpF_packed : packComparisons (cmpF (p := 7)) = cmpG := by
  simp [packComparisons, cmpF, cmpG, packStmt, packE, compareE, TExpr.ty, packArray, size_seven, List.range, List.range.loop, chunks, packChunk, sumRec, cmpBit,
    List.zipIdx]

theorem cmpF_wt : (cmpF (p := p)).Wt where
  params := by simp [cmpF, TypeOk, CType.Distinct, CType.Small, primCount]
  ret := by simp [cmpF, TypeOk, CType.Distinct, CType.Small, primCount]
  body := by simp [cmpF, TStmt.Wt, TExpr.Wt, TExpr.ty, TypeOk, CType.Distinct, CType.Small, primCount]

/-- The example meets the hypotheses: `[true, false, true] == [true, false, b]` is `b`, before and after. -/
theorem C51_example (O : Oracle 7 Z) (b : Bool) : Replaces O cmpF cmpG ∧
    ReturnsT O cmpF [.array [.bool true, .bool false, .bool true], .array [.bool true, .bool false, .bool b]] (.bool b) ∧
    ReturnsT O cmpG [.array [.bool true, .bool false, .bool true], .array [.bool true, .bool false, .bool b]] (.bool b) := by
  have hr : Replaces O cmpF cmpG := by
    rw [← cmpF_packed]
    exact C51_same_function cmpF_wt
  have h : ReturnsT O cmpF [.array [.bool true, .bool false, .bool true], .array [.bool true, .bool false, .bool b]] (.bool b) := by
    refine ⟨by simp [cmpF, HasTypeL, HasType], _, .cons (.ret (v := .bool b) ?_) .nil, rfl⟩
    cases b <;> simp [evalT, initT, cmpF, TState.setAll, TState.set, HasType, bind, Except.bind]
  exact ⟨hr, h, hr.results _ _ h⟩

/-- A comparison inside of an operand of a comparison of arrays of booleans is not packed: in `[a == b] == c` only the outer one is. -/
theorem C51_nested_not_packed : ∃ l r : TExpr (ZMod 7), packE (.eq (.array .bool 1 [.expr (.eq (.ident 0 (.array 3 .bool)) (.ident 1 (.array 3 .bool)))])
      (.ident 2 (.array 1 .bool))) =
    .eq (.array .field 1 [.expr (.cond .field (.select .bool (.array .bool 1 [.expr (.eq (.ident 0 (.array 3 .bool)) (.ident 1 (.array 3 .bool)))]) (.uval .b32 0)) l
      (.fval 0))]) r := by
  refine ⟨.fubin .pow (.fval 2) (.uval .b32 0), packArray (.ident 2 (.array 1 .bool)) 1, ?_⟩
  simp [packE, compareE, TExpr.ty, packArray, size_seven, List.range, List.range.loop, chunks, packChunk, sumRec, List.zipIdx]

end Zok.Typed
