import Verif.Lemmas.ConditionRedefinerShape

/-
C50: conditions of conditionals are computed in front of the statement. `cid k` is the `k`th identifier `#CONDITION_k`, which the source cannot contain.
-/

set_option linter.unusedSectionVars false
set_option linter.unusedSimpArgs false

namespace Zok.Typed
open Abi
variable {p : ℕ} {Z : Type} [Fact p.Prime] {O : Oracle p Z} {cid : ℕ → TId} {f : TFun (ZMod p)}

/-- **C50** (same function). The function with redefined conditions returns what the source returns; it returns nothing else unless the source can fail; it fails
only where the source fails; and where an assertion of the source fails, one of its assertions fails. -/
theorem C50_same_function (hc : Function.Injective cid) (hw : f.Wt) (hn : NoCid cid f.vars) (he : ConstantCalls f.body) : Replaces O f (redefine cid f) :=
  redefine_replaces hc hw hn he

/-- **C50** (equivalence). On arguments on which the source does not fail, both functions return the same. -/
theorem C50_iff (hc : Function.Injective cid) (hw : f.Wt) (hn : NoCid cid f.vars) (he : ConstantCalls f.body) {args : List (AVal (ZMod p))}
    (hf : ∀ e, ¬ FaultsT O f args e) : (∀ out, ReturnsT O (redefine cid f) args out ↔ ReturnsT O f args out) ∧ ∀ e, ¬ FaultsT O (redefine cid f) args e := by
  have hr : Replaces O f (redefine cid f) := redefine_replaces hc hw hn he
  refine ⟨fun out => ⟨fun h1 => ?_, hr.results args out⟩, fun e h1 => ?_⟩
  · rcases hr.noNewResults args out h1 with h1 | ⟨e, h1⟩
    · exact h1
    · exact absurd h1 (hf e)
  · obtain ⟨e', h1⟩ := hr.noNewFailures args e h1
    exact hf e' h1

/-- **C50** (conditions). Afterwards every condition, in every statement and at every depth, is a literal or a variable: branches are not duplicated together
with the computation of their condition. -/
theorem C50_simple_conditions (cid : ℕ → TId) (f : TFun (ZMod p)) : ∀ s ∈ (redefine cid f).body, s.SimpleConditions := redefStmts_simple f.body 0

open Classical in
/-- **C50** (new variables). The new variables are assigned once each, in the order of their indices, starting with 0. -/
theorem C50_new_variables (hw : f.Wt) (hn : NoCid cid f.vars) :
    ∃ m, ((redefine cid f).body.flatMap TStmt.assigns).filter (fun x => decide (∃ k, x = cid k)) = (List.range m).map cid := by
  obtain ⟨m, h⟩ := redefStmts_assigns (n := 0) hw.body fun s hs x hx =>
    hn x (by simp only [TFun.vars, List.mem_append, List.mem_flatMap]; exact .inr ⟨s, hs, hx⟩)
  exact ⟨m, by rw [List.range_eq_range']; exact h⟩

/-- **C50** (types). The result is well-typed, has the same signature, and embedded functions still assign new variables. -/
theorem C50_typed (hw : f.Wt) (hn : NoCid cid f.vars) : (redefine cid f).Wt ∧ (redefine cid f).params = f.params ∧ (redefine cid f).ret = f.ret ∧
    (FreshCalls (f.params.map TParam.id) f.body → FreshCalls ((redefine cid f).params.map TParam.id) (redefine cid f).body) :=
  ⟨redefine_wt hw, rfl, rfl, redefStmts_fresh hw.body fun s hs x hx =>
    hn x (by simp only [TFun.vars, List.mem_append, List.mem_flatMap]; exact .inr ⟨s, hs, hx⟩)⟩

/-! ### An example -/

/-- ```
def main(field x, field y, bool c) -> field {
    return !c ? (x == y ? 1 : y) : (c ? x : 2);
}
``` -/
def cndF : TFun (ZMod p) where
  params := [⟨0, .field, true⟩, ⟨1, .field, true⟩, ⟨2, .bool, true⟩]
  ret := .field
  body := [.ret (.cond .field (.bnot (.ident 2 .bool)) (.cond .field (.eq (.ident 0 .field) (.ident 1 .field)) (.fval 1) (.ident 1 .field))
    (.cond .field (.ident 2 .bool) (.ident 0 .field) (.fval 2)))]

/-- The numbers of the new variables. -/
def cndId (k : ℕ) : TId := k + 100

/-- `cndF` with redefined conditions. -/
def cndG : TFun (ZMod p) where
  params := [⟨0, .field, true⟩, ⟨1, .field, true⟩, ⟨2, .bool, true⟩]
  ret := .field
  body := [.definition (.ident 100 .bool) (.bnot (.ident 2 .bool)), .definition (.ident 101 .bool) (.eq (.ident 0 .field) (.ident 1 .field)),
    .ret (.cond .field (.ident 100 .bool) (.cond .field (.ident 101 .bool) (.fval 1) (.ident 1 .field))
      (.cond .field (.ident 2 .bool) (.ident 0 .field) (.fval 2)))]

theorem cndF_redefined : redefine cndId (cndF (p := p)) = cndG := by rfl

theorem cndF_wt : (cndF (p := p)).Wt where
  params := by simp [cndF, TypeOk, CType.Distinct, CType.Small, SmallL, SmallM, primCount]
  ret := by simp [cndF, TypeOk, CType.Distinct, CType.Small, SmallL, SmallM, primCount]
  body := by simp [cndF, TStmt.Wt, TExpr.Wt, TExpr.ty, TypeOk, CType.Distinct, CType.Small, SmallL, SmallM, primCount]

theorem cndId_inj : Function.Injective cndId := fun a b h => by
  simp only [cndId] at h
  change @Eq ℕ _ _ at h
  omega

theorem cndF_noCid : NoCid cndId (cndF (p := p)).vars := by
  intro x hx k h
  simp only [cndId] at h
  simp [TFun.vars, cndF, TStmt.vars, TExpr.vars] at hx
  rw [h] at hx
  change k + 100 = 0 ∨ k + 100 = 1 ∨ k + 100 = 2 ∨ k + 100 = 0 ∨ k + 100 = 1 ∨ k + 100 = 2 ∨ k + 100 = 0 at hx
  omega

theorem cndF_calls : ConstantCalls (cndF (p := p)).body := by
  intro a f g args h
  simp [cndF] at h

/-- The example meets the hypotheses, and both functions return 1 on `x = 2`, `y = 2`, `c = false`. -/
theorem C50_example (O : Oracle p Z) : Replaces O cndF cndG ∧ ReturnsT O cndF [.field 2, .field 2, .bool false] (.field 1) ∧
    ReturnsT O cndG [.field 2, .field 2, .bool false] (.field 1) := by
  have hr : Replaces O cndF cndG := by
    rw [← cndF_redefined]
    exact C50_same_function cndId_inj cndF_wt cndF_noCid cndF_calls
  have h : ReturnsT O cndF [.field 2, .field 2, .bool false] (.field 1) := by
    refine ⟨by simp [cndF, HasTypeL, HasType], _, .cons (.ret (v := .field 1) ?_) .nil, rfl⟩
    simp [evalT, initT, cndF, TState.setAll, TState.set, HasType, asBool, bind, Except.bind]
  exact ⟨hr, h, hr.results _ _ h⟩

end Zok.Typed
