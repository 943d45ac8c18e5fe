import Verif.Lemmas.VariableWriteStmt
import Verif.Spec.BigField

/-
C49: assignments to array elements with an index which is only known at run time are replaced by assignments to the whole variable. `f` is a typed function
and `g` what `VariableWriteRemover` makes of it; `ord` is the order in which the hash set of the range checks is enumerated.
-/

set_option linter.unusedSectionVars false
set_option linter.unusedSimpArgs false

namespace Zok.Typed
open Abi
variable {p : ℕ} {Z : Type} [Fact p.Prime] {O : Oracle p Z} {ord : List (TStmt (ZMod p)) → List (TStmt (ZMod p))} {f g : TFun (ZMod p)}

/-- **C49** (same function). The rewritten function returns what the source returns; it returns nothing else unless the source can fail; it fails only where the
source fails; and where an assertion of the source fails, one of its assertions fails. -/
theorem C49_same_function (hord : Enumerates ord) (hw : f.Wt) (h : removeWrites ord f = some g) : Replaces O f g := removeWrites_replaces hord hw h

/-- **C49** (equivalence). On arguments on which the source does not fail, source and rewritten function return the same, and the rewritten function does not
fail. -/
theorem C49_iff (hord : Enumerates ord) (hw : f.Wt) (h : removeWrites ord f = some g) {args : List (AVal (ZMod p))} (hn : ∀ e, ¬ FaultsT O f args e) :
    (∀ out, ReturnsT O g args out ↔ ReturnsT O f args out) ∧ ∀ e, ¬ FaultsT O g args e := by
  have hr : Replaces O f g := removeWrites_replaces hord hw h
  refine ⟨fun out => ⟨fun h1 => ?_, hr.results args out⟩, fun e h1 => ?_⟩
  · rcases hr.noNewResults args out h1 with h1 | ⟨e, h1⟩
    · exact h1
    · exact absurd h1 (hn e)
  · obtain ⟨e', h1⟩ := hr.noNewFailures args e h1
    exact hn e' h1

/-- **C49** (indices out of range are rejected). If the source reaches an assignment to a part of a variable whose indices have values, but the part does not
exist because one of them is out of range, then an assertion of the rewritten function fails: no proof can be made. -/
theorem C49_out_of_range (hord : Enumerates ord) (hw : f.Wt) (h : removeWrites ord f = some g) {args : List (AVal (ZMod p))}
    (ht : HasTypeL (f.params.map TParam.ty) args) {pre post : List (TStmt (ZMod p))} {a : TAssignee (ZMod p)} {e : TExpr (ZMod p)} {σ : TState p}
    {r : AVal (ZMod p)} (hb : f.body = pre ++ .definition a e :: post) (hx : ExecTs O (initT f args) pre (.ok σ)) (hc : ¬ a.ConstantIndices)
    (hr : evalT σ.env (.ident a.root a.rootTy) = .ok r) (hi : ∀ i ∈ a.indices, ∃ v, evalT σ.env i = .ok v)
    (ho : ∀ v, ¬ ∃ u, setA σ.env a v = .ok u) : AssertFailsT O g args := removeWrites_outOfRange hord hw h ht hb hx hc hr hi ho

/-- **C49** (no panic, types). The pass does not panic on well-typed functions, and its result is well-typed. -/
theorem C49_no_panic (hord : Enumerates ord) (hw : f.Wt) : ∃ g, removeWrites ord f = some g ∧ g.Wt :=
  removeWrites_wt hord hw

/-- **C49** (what is left). Behind the pass, all assignments but those of embedded functions have literals as indices, as the flattening of types needs it; the
parameters and the return type are the same; and embedded functions still assign new variables. -/
theorem C49_constant_indices (hord : Enumerates ord) (h : removeWrites ord f = some g) :
    (∀ a e, .definition a e ∈ g.body → a.ConstantIndices) ∧ g.params = f.params ∧ g.ret = f.ret ∧
    (FreshCalls (f.params.map TParam.id) f.body → FreshCalls (g.params.map TParam.id) g.body) := by
  obtain ⟨b, h1, rfl⟩ := Option.map_eq_some_iff.1 h
  exact ⟨fun a e hm => writeStmts_constant hord h1 hm, rfl, rfl, writeStmts_fresh hord h1⟩

/-- **C49** (nothing else changes). A function in which all assignments have literals as indices is left as it is. -/
theorem C49_unchanged (hc : ∀ a e, .definition a e ∈ f.body → a.ConstantIndices) : removeWrites ord f = some f := by
  have key : ∀ body : List (TStmt (ZMod p)), (∀ a e, .definition a e ∈ body → a.ConstantIndices) → writeStmts ord body = some body := by
    intro body
    induction body with
    | nil => intro _; rfl
    | cons s body ih =>
      intro h
      have hs : writeStmt ord s = some [s] := by
        cases s with
        | definition a e => simp only [writeStmt, isConstant_iff.2 (h a e (by simp)), if_true]
        | _ => rfl
      simp only [writeStmts, hs, ih fun a e hm => h a e (by simp [hm]), List.singleton_append]
  simp only [removeWrites, key f.body hc, Option.map_some]

/-! ### An example -/

/-- The type `struct S { field[3] v; bool b; }`. -/
def wrTy : CType := .struct [(['v'], .array 3 .field), (['b'], .bool)]

/-- ```
def main(S mut s, u32 i, field x) -> S {
    s.v[i] = x;
    return s;
}
``` -/
def wrF : TFun (ZMod p) where
  params := [⟨0, wrTy, true⟩, ⟨1, .uint .b32, true⟩, ⟨2, .field, true⟩]
  ret := wrTy
  body := [.definition (.select (.member (.ident 0 wrTy) ['v']) (.ident 1 (.uint .b32))) (.ident 2 .field), .ret (.ident 0 wrTy)]

/-- `s.v[k]` -/
def wrSel (k : ℕ) : TExpr (ZMod p) := .select .field (.member (.array 3 .field) (.ident 0 wrTy) ['v']) (.uval .b32 k)

/-- `i == k ? x : s.v[k]` -/
def wrElt (k : ℕ) : TSpread (ZMod p) := .expr (.cond .field (.eq (.uval .b32 k) (.ident 1 (.uint .b32))) (.ident 2 .field) (wrSel k))

/-- `wrF` rewritten. -/
def wrG : TFun (ZMod p) where
  params := (wrF (p := p)).params
  ret := wrTy
  body := [.assertion (.ucmp .lt (.ident 1 (.uint .b32)) (.uval .b32 3)) .selectRangeCheck,
    .definition (.ident 0 wrTy) (.struct [(['v'], .array 3 .field), (['b'], .bool)]
      [.array .field 3 [wrElt 0, wrElt 1, wrElt 2], .member .bool (.ident 0 wrTy) ['b']]),
    .ret (.ident 0 wrTy)]

theorem wrF_wt : (wrF (p := p)).Wt where
  params := by simp [wrF, wrTy, TypeOk, CType.Distinct, CType.Small, SmallL, SmallM, DistinctM, primCount, primCountM]
  ret := by simp [wrF, wrTy, TypeOk, CType.Distinct, CType.Small, SmallL, SmallM, DistinctM, primCount, primCountM]
  body := by
    simp [wrF, wrTy, TStmt.Wt, TAssignee.Wt, TExpr.Wt, TAssignee.ty, TExpr.ty, TypeOk, CType.Distinct, CType.Small, SmallL, SmallM, DistinctM, primCount, primCountM]

theorem wrF_removed : removeWrites id (wrF (p := p)) = some wrG := by with_unfolding_all rfl

theorem id_enumerates {F : Type} : Enumerates (F := F) id := fun _ _ => Iff.rfl

/-- The arguments: `s.v = [10, 11, 12]`, `s.b = true`, the index and the new element. -/
def wrArgs (i : ℕ) : List (AVal (ZMod p)) :=
  [.struct [(['v'], .array [.field 10, .field 11, .field 12]), (['b'], .bool true)], .uint .b32 i, .field 7]

/-- The source replaces the element with index 1, and so does the rewritten function. -/
theorem C49_example_returns (O : Oracle p Z) :
    ReturnsT O wrF (wrArgs 1) (.struct [(['v'], .array [.field 10, .field 7, .field 12]), (['b'], .bool true)]) ∧
    ReturnsT O wrG (wrArgs 1) (.struct [(['v'], .array [.field 10, .field 7, .field 12]), (['b'], .bool true)]) := by
  have h : ReturnsT O wrF (wrArgs 1) (.struct [(['v'], .array [.field 10, .field 7, .field 12]), (['b'], .bool true)]) := by
    refine ⟨by simp [wrF, wrTy, wrArgs, HasTypeL, HasTypeM, HasType, UW.bits], _, .cons (.definition (v := .field 7)
      (u := .struct [(['v'], .array [.field 10, .field 7, .field 12]), (['b'], .bool true)]) ?_ ?_)
      (.cons (.ret (v := .struct [(['v'], .array [.field 10, .field 7, .field 12]), (['b'], .bool true)]) ?_) .nil), rfl⟩
    · simp [evalT, initT, wrF, wrArgs, TState.setAll, TState.set, HasType]
    · simp [setA, getA, evalT, initT, wrF, wrTy, wrArgs, TState.setAll, TState.set, HasType, HasTypeL, HasTypeM, asArray, asUint, UW.bits, bind, Except.bind]
    · simp [evalT, TState.set, TAssignee.root, HasType, HasTypeL, HasTypeM, wrTy]
  exact ⟨h, (C49_same_function id_enumerates wrF_wt wrF_removed).results _ _ h⟩

/-- The index 3 is out of range: an assertion of the rewritten function fails. -/
theorem C49_example_out_of_range (O : Oracle p Z) : AssertFailsT O wrG (wrArgs 3) := by
  refine C49_out_of_range (f := wrF) (r := .struct [(['v'], .array [.field 10, .field 11, .field 12]), (['b'], .bool true)]) id_enumerates wrF_wt wrF_removed
    (by simp [wrF, wrTy, wrArgs, HasTypeL, HasTypeM, HasType, UW.bits]) (pre := []) rfl .nil ?_ ?_ ?_ ?_
  · intro h
    obtain ⟨w, k, h⟩ := h (.ident 1 (.uint .b32)) (by simp [TAssignee.indices])
    cases h
  · simp [evalT, initT, wrF, wrTy, wrArgs, TState.setAll, TState.set, HasType, HasTypeL, HasTypeM, TAssignee.root, TAssignee.rootTy]
  · intro i hi
    simp only [TAssignee.indices, List.nil_append, List.mem_singleton] at hi
    subst hi
    exact ⟨.uint .b32 3, by simp [evalT, initT, wrF, wrTy, wrArgs, TState.setAll, TState.set, HasType, UW.bits]⟩
  · rintro v ⟨u, h⟩
    simp [setA, getA, evalT, initT, wrF, wrTy, wrArgs, TState.setAll, TState.set, HasType, HasTypeL, HasTypeM, asArray, asUint, UW.bits, bind, Except.bind] at h

end Zok.Typed
