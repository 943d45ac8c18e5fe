import Verif.Props.FlattenTypes
import Verif.Props.PipelineExamples
import Verif.Spec.BigField

/-
Typed functions that meet the hypotheses of `Props/FlattenTypes.lean`, and functions which the code does not flatten correctly.
-/

set_option linter.unusedSectionVars false

namespace Zok.Typed
open Abi Dce

/-! ### Numbering of identifiers -/

/-- A number for a string. -/
def strCode : Str → ℕ
  | [] => 0
  | c :: cs => Nat.pair c.toNat (strCode cs) + 1

theorem strCode_inj : ∀ {a b : Str}, strCode a = strCode b → a = b
  | [], [], _ => rfl
  | [], _ :: _, h => by simp [strCode] at h
  | _ :: _, [], h => by simp [strCode] at h
  | c :: cs, d :: ds, h => by
    simp only [strCode, Nat.add_right_cancel_iff, Nat.pair_eq_pair] at h
    rw [strCode_inj h.2, Char.toNat_inj.1 h.1]

/-- A number for an identifier. -/
def num : SId → ZId
  | .basic x => 4 * x
  | .select a i => 4 * Nat.pair (num a) i + 1
  | .member a m => 4 * Nat.pair (num a) (strCode m) + 2
  | .element a i => 4 * Nat.pair (num a) i + 3

theorem num_inj : Function.Injective num := by
  intro a
  induction a with
  | basic x => intro b h; cases b <;> simp only [num] at h <;> change @Eq ℕ _ _ at h <;> first | (congr 1; change @Eq ℕ _ _; omega) | (exfalso; omega)
  | select a i ih =>
    intro b h
    cases b <;> simp only [num] at h <;> change @Eq ℕ _ _ at h <;> try (exfalso; omega)
    rename_i b j
    have h' : Nat.pair (num a) i = Nat.pair (num b) j := by omega
    rw [Nat.pair_eq_pair] at h'
    rw [ih h'.1, h'.2]
  | member a i ih =>
    intro b h
    cases b <;> simp only [num] at h <;> change @Eq ℕ _ _ at h <;> try (exfalso; omega)
    rename_i b j
    have h' : Nat.pair (num a) (strCode i) = Nat.pair (num b) (strCode j) := by omega
    rw [Nat.pair_eq_pair] at h'
    rw [ih h'.1, strCode_inj h'.2]
  | element a i ih =>
    intro b h
    cases b <;> simp only [num] at h <;> change @Eq ℕ _ _ at h <;> try (exfalso; omega)
    rename_i b j
    have h' : Nat.pair (num a) i = Nat.pair (num b) j := by omega
    rw [Nat.pair_eq_pair] at h'
    rw [ih h'.1, h'.2]

/-! ### Assignments to parts of a variable -/

variable {p : ℕ} [Fact p.Prime] {Z : Type}

/-- ```
def main(field[1][2] mut a) -> field[1][2] {
    a[0] = [a[0][1], a[0][0]];
    return a;
}
``` -/
def swapF : TFun (ZMod p) where
  params := [⟨0, .array 1 (.array 2 .field), true⟩]
  ret := .array 1 (.array 2 .field)
  body := [
    .definition (.select (.ident 0 (.array 1 (.array 2 .field))) (.uval .b32 0))
      (.array .field 2 [.expr (.select .field (.select (.array 2 .field) (.ident 0 (.array 1 (.array 2 .field))) (.uval .b32 0)) (.uval .b32 1)),
        .expr (.select .field (.select (.array 2 .field) (.ident 0 (.array 1 (.array 2 .field))) (.uval .b32 0)) (.uval .b32 0))]),
    .ret (.ident 0 (.array 1 (.array 2 .field)))]

theorem swapF_wt : (swapF (p := p)).Wt where
  params := by simp [swapF, TypeOk, CType.Distinct, CType.Small, SmallL, SmallM, primCount]
  ret := by simp [swapF, TypeOk, CType.Distinct, CType.Small, SmallL, SmallM, primCount]
  body := by
    simp [swapF, TStmt.Wt, TAssignee.Wt, TExpr.Wt, WtS, TAssignee.ty, TExpr.ty, TypeOk, CType.Distinct, CType.Small, SmallL, SmallM, primCount, spreadCount, UW.bits]

/-- The identifiers of `a[0][0]` and `a[0][1]`. -/
def aId (j : ℕ) : SId := .select (.select (.basic 0) 0) j

/-- `swapF` flattened: the second definition reads what the first one has assigned. -/
def swapG (nm : SId → ZId) : ZFun (ZMod p) Z where
  params := [⟨nm (aId 0), .field, true⟩, ⟨nm (aId 1), .field, true⟩]
  returnCount := 2
  body := [.definition (nm (aId 0)) (.field (.ident (nm (aId 1)))), .definition (nm (aId 1)) (.field (.ident (nm (aId 0)))),
    .ret [.field (.ident (nm (aId 0))), .field (.ident (nm (aId 1)))]]

/-- **C48**, the exception: the components of the assigned part are assigned one after the other, so that an assignment which reads them gives a wrong
result. The source swaps the two elements; the flattened function, and with it the compiled circuit, returns the second one twice. -/
theorem C48_partial_assignment_miscompiled (nm : SId → ZId) (hnm : Function.Injective nm) (O : Oracle p Z) (x y : ZMod p) :
    (swapF (p := p)).Wt ∧ flatFun nm (swapF (p := p)) = some (swapG (Z := Z) nm) ∧
    ReturnsT O swapF [.array [.array [.field x, .field y]]] (.array [.array [.field y, .field x]]) ∧
    Returns O (swapG nm) (encodeL [.array [.array [.field x, .field y]]]) [y, y] := by
  have h01 : nm (aId 0) ≠ nm (aId 1) := fun h => by have := hnm h; simp [aId] at this
  refine ⟨swapF_wt, ?_, ?_, ?_⟩
  · rfl
  · refine ⟨by simp [swapF, HasTypeL, HasType], _, .cons (.definition (v := .array [.field y, .field x]) (u := .array [.array [.field y, .field x]]) ?_ ?_)
      (.cons (.ret (v := .array [.array [.field y, .field x]]) ?_) .nil), rfl⟩
    · simp [evalT, evalS, initT, swapF, TState.setAll, TState.set, HasType, asArray, asUint, selectVal, bind, Except.bind]
    · simp [setA, getA, evalT, initT, swapF, TState.setAll, TState.set, HasType, asArray, asUint, bind, Except.bind]
    · simp [evalT, TState.set, TAssignee.root, HasType]
  · refine ⟨[.field x, .field y], _, [.field y, .field y], by rfl, .cons (.definition (v := .field y) ?_) (.cons (.definition (v := .field y) ?_)
      (.cons (.ret (vs := [.field y, .field y]) ?_) .nil)), rfl, by rfl⟩
    all_goals simp [evalZ, evalZs, evalF, initState, swapG, ZState.setAll, ZState.set, h01, bind, Except.bind]

/-! ### Panics -/

/-- ```
struct S {}
def main(S[2] a, u32 i) -> S { return a[i]; }
``` -/
def emptyF : TFun (ZMod p) where
  params := [⟨0, .array 2 (.struct []), true⟩, ⟨1, .uint .b32, true⟩]
  ret := .struct []
  body := [.ret (.select (.struct []) (.ident 0 (.array 2 (.struct []))) (.ident 1 (.uint .b32)))]

/-- **C48**, the exception: a well-typed program that selects an element without components with an index known only at run time makes the compiler
panic (`chunks(0)`). -/
theorem C48_empty_elements_panic (nm : SId → ZId) (O : Oracle p Z) : (emptyF (p := p)).Wt ∧
    ReturnsT O (emptyF (p := p)) [.array [.struct [], .struct []], .uint .b32 1] (.struct []) ∧ flatFun (Z := Z) nm (emptyF (p := p)) = none := by
  refine ⟨⟨?_, ?_, ?_⟩, ⟨?_, _, .cons (.ret (v := .struct []) ?_) .nil, rfl⟩, rfl⟩
  · simp [emptyF, TypeOk, CType.Distinct, CType.Small, SmallL, SmallM, DistinctM, primCount, primCountM]
  · simp [emptyF, TypeOk, CType.Distinct, CType.Small, SmallL, SmallM, DistinctM, primCount, primCountM]
  · simp [emptyF, TStmt.Wt, TExpr.Wt, TExpr.ty, TypeOk, CType.Distinct, CType.Small, SmallL, SmallM, DistinctM, primCount, primCountM]
  · simp [emptyF, HasTypeL, HasType, HasTypeM, UW.bits]
  · simp [evalT, initT, emptyF, TState.setAll, TState.set, HasType, HasTypeM, asArray, asUint, selectVal, bind, Except.bind, UW.bits]

/-- ```
def main(field[2][2] a, u32 i) -> field[2] { return a[i]; }
``` -/
def dynF : TFun (ZMod p) where
  params := [⟨0, .array 2 (.array 2 .field), true⟩, ⟨1, .uint .b32, true⟩]
  ret := .array 2 .field
  body := [.ret (.select (.array 2 .field) (.ident 0 (.array 2 (.array 2 .field))) (.ident 1 (.uint .b32)))]

/-- The hypotheses of `C48_no_panic` and `C48_iff_partial` are met by a function that selects with an index known only at run time. -/
example (nm : SId → ZId) (hnm : Function.Injective nm) (hp : 2 ^ 64 ≤ p) (O : Oracle p Z) (a b c d : ZMod p) : ∃ g : ZFun (ZMod p) Z, flatFun nm dynF = some g ∧
    ∀ outs, Returns O g [a, b, c, d, 1] outs ↔ outs = [c, d] := by
  have hw : (dynF (p := p)).Wt := by
    refine ⟨?_, ?_, ?_⟩
    · simp [dynF, TypeOk, CType.Distinct, CType.Small, SmallL, SmallM, primCount]
    · simp [dynF, TypeOk, CType.Distinct, CType.Small, SmallL, SmallM, primCount]
    · simp [dynF, TStmt.Wt, TExpr.Wt, TExpr.ty, TypeOk, CType.Distinct, CType.Small, SmallL, SmallM, primCount]
  obtain ⟨g, hg⟩ := C48_no_panic (Z := Z) (nm := nm) hw (by
    simp only [dynF, List.mem_singleton, forall_eq, TStmt.Selects, TExpr.Selects, TExpr.ty, and_true]
    intro n t u h1 h2
    cases h1
    cases h2
    exact ⟨by norm_num, by simp [primCount]⟩)
  have ho : ∀ s ∈ (dynF (p := p)).body, s.OracleFree := by simp [dynF, TStmt.OracleFree]
  have hr : ReturnsT O dynF [.array [.array [.field a, .field b], .array [.field c, .field d]], .uint .b32 1] (.array [.field c, .field d]) := by
    refine ⟨by simp [dynF, HasTypeL, HasType, UW.bits], _, .cons (.ret (v := .array [.field c, .field d]) ?_) .nil, rfl⟩
    simp [evalT, initT, dynF, TState.setAll, TState.set, HasType, asArray, asUint, selectVal, bind, Except.bind, UW.bits]
  refine ⟨g, hg, fun outs => ?_⟩
  have hi := C48_iff_partial hnm hp hw (by simp [dynF, TStmt.Simultaneous]) hg hr.1 (fun e => hr.not_faults (O' := O) ho e) outs
  have he : encodeL [(.array [.array [.field a, .field b], .array [.field c, .field d]] : AVal (ZMod p)), .uint .b32 1] = [a, b, c, d, 1] := by
    simp [encode, encodeL]
  rw [he] at hi
  rw [hi]
  exact ⟨fun ⟨o, h1, h2⟩ => by rw [← h2, hr.unique ho h1]; simp [encode, encodeL], fun h => ⟨_, hr, by rw [h]; simp [encode, encodeL]⟩⟩

/-! ### A function that meets all hypotheses -/

/-- The type of a struct with a field element `x` and a boolean `b`. -/
abbrev sTy : CType := .struct [(['x'], .field), (['b'], .bool)]

/-- ```
struct S { field x; bool b; }
def main(field[2] a, S s) -> (field, field) {
    (field, field) mut t = (a[0] * a[1], if s.b { a[0] } else { s.x });
    t.1 = t.1 + 3;
    assert(!(a == [s.x, 4]));
    return t;
}
``` -/
def typF : TFun (ZMod M127) where
  params := [⟨0, .array 2 .field, true⟩, ⟨1, sTy, false⟩]
  ret := .tuple [.field, .field]
  body := [
    .definition (.ident 2 (.tuple [.field, .field])) (.tuple [.field, .field] [
      .fbin .mult (.select .field (.ident 0 (.array 2 .field)) (.uval .b32 0)) (.select .field (.ident 0 (.array 2 .field)) (.uval .b32 1)),
      .cond .field (.member .bool (.ident 1 sTy) ['b']) (.select .field (.ident 0 (.array 2 .field)) (.uval .b32 0)) (.member .field (.ident 1 sTy) ['x'])]),
    .definition (.element (.ident 2 (.tuple [.field, .field])) 1)
      (.fbin .add (.element .field (.ident 2 (.tuple [.field, .field])) 1) (.fval 3)),
    .assertion (.bnot (.eq (.ident 0 (.array 2 .field)) (.array .field 2 [.expr (.member .field (.ident 1 sTy) ['x']), .expr (.fval 4)])))
      (.sourceAssertion ""),
    .ret (.ident 2 (.tuple [.field, .field]))]

theorem typF_wt : typF.Wt where
  params := by simp [typF, TypeOk, CType.Distinct, CType.Small, SmallL, SmallM, DistinctM, primCount, primCountM, sTy]
  ret := by simp [typF, TypeOk, CType.Distinct, CType.Small, SmallL, SmallM, DistinctL, primCount, primCountL]
  body := by
    simp [typF, TStmt.Wt, TAssignee.Wt, TExpr.Wt, WtS, WtL, TAssignee.ty, TExpr.ty, TypeOk, CType.Distinct, CType.Small, SmallL, SmallM, DistinctM, DistinctL, primCount, primCountM,
      primCountL, spreadCount, UW.bits, sTy, List.lookup]

theorem typF_sim : ∀ s ∈ typF.body, s.Simultaneous num := by
  simp [typF, TStmt.Simultaneous, TAssignee.root, TExpr.vars, varsL, TAssignee.ty, primCount]

theorem typF_selects : ∀ s ∈ typF.body, s.Selects num := by
  simp [typF, TStmt.Selects, TExpr.Selects, SelectsL, SelectsS, TAssignee.InBounds, flat, popU, UExpr.inner, TExpr.ty]

theorem typF_fresh : FreshCalls (typF.params.map TParam.id) typF.body := by
  simp [typF, FreshCalls]

/-- Source and flattened identifiers. -/
abbrev a0 : ZId := num (.select (.basic 0) 0)
abbrev a1 : ZId := num (.select (.basic 0) 1)
abbrev sx : ZId := num (.member (.basic 1) ['x'])
abbrev sb : ZId := num (.member (.basic 1) ['b'])
abbrev t0 : ZId := num (.element (.basic 2) 0)
abbrev t1 : ZId := num (.element (.basic 2) 1)

/-- `typF` flattened. -/
def typG : ZFun (ZMod M127) Unit where
  params := [⟨a0, .field, true⟩, ⟨a1, .field, true⟩, ⟨sx, .field, false⟩, ⟨sb, .bool, false⟩]
  returnCount := 2
  body := [
    .definition t0 (.field (.mult (.ident a0) (.ident a1))),
    .definition t1 (.field (.cond (.ident sb) (.ident a0) (.ident sx))),
    .definition t1 (.field (.add (.ident t1) (.value 3))),
    .assertion (.not (.and (.fieldEq (.ident a0) (.ident sx)) (.fieldEq (.ident a1) (.value 4)))) (.sourceAssertion ""),
    .ret [.field (.ident t0), .field (.ident t1)]]

theorem typF_flat : flatFun num typF = some typG := by rfl
theorem typG_propagated : Prop'.propagate (Pl.noFolder M127 Unit) .sourceAssemblyConstraint typG = .ok typG := by with_unfolding_all rfl

theorem typG_free : ZStmt.OracleFreeL typG.body := ⟨trivial, trivial, trivial, trivial, trivial, trivial⟩
theorem typF_free : ∀ s ∈ typF.body, s.OracleFree := by simp [typF, TStmt.OracleFree]

theorem typG_ok : Compilable typG where
  typed := by
    have hb : ∃ Γ', WtStmts (TCtx.setAll (fun _ => none) (typG.params.map ZParam.id) (typG.params.map ZParam.ty)) typG.body Γ' := by
      refine ⟨_, .cons (.definition ?_) (.cons (.definition ?_) (.cons (.definition ?_) (.cons (.assertion ?_ ?_) (.cons (.ret ?_) .nil))))⟩
      · exact ⟨by change _ = some _; decide +kernel, by change _ = some _; decide +kernel⟩
      · exact ⟨by change _ = some _; decide +kernel, by change _ = some _; decide +kernel, by change _ = some _; decide +kernel⟩
      · exact ⟨by change _ = some _; decide +kernel, trivial⟩
      · exact ⟨⟨by change _ = some _; decide +kernel, by change _ = some _; decide +kernel⟩, by change _ = some _; decide +kernel, trivial⟩
      · intro c hc h
        exact Px.conj_not hc h
      · intro e he
        simp only [List.mem_cons, List.not_mem_nil, or_false] at he
        rcases he with rfl | rfl
        · exact by change _ = some _; decide +kernel
        · exact by change _ = some _; decide +kernel
    obtain ⟨Γ', hb⟩ := hb
    refine ⟨?_, [_, _, _, _], _, Γ', rfl, rfl, hb⟩
    intro q hq
    simp only [typG, List.mem_cons, List.not_mem_nil, or_false] at hq
    rcases hq with rfl | rfl | rfl | rfl <;> trivial
  plain := by decide +kernel
  powers := by
    simp [typG, ZStmt.ExtractableL, ZStmt.Extractable, ZExpr.NoPowZero, FExpr.NoPowZero, BExpr.NoPowZero]
  apart := by simp [typG, ZStmt.BranchesApartL, ZStmt.BranchesApart]
  ret := ⟨[_, _, _, _], _, rfl, trivial, trivial, trivial, trivial, trivial⟩
  noAsm := Pl.noAsmL_of_free _ typG_free
  noCast := ⟨trivial, trivial, trivial, trivial, trivial, trivial⟩

theorem typF_accepted : Accepted num (Pl.noFolder M127 Unit) .sourceAssemblyConstraint typF typG :=
  ⟨typF_wt, typF_sim, typF_fresh, ⟨typG, typF_flat, typG_propagated⟩, typG_ok⟩

/-- No solvers but the ones of the back end are called. -/
def bigSem : SolverSem (ZMod M127) Unit := ⟨fun _ => (1, 1), fun _ xs => .ok xs, fun _ _ => []⟩

theorem typF_compiles : ∃ hash P', compileTyped num (Pl.noFolder M127 Unit) .sourceAssemblyConstraint (Pl.keep M127 Unit) bigSem hash typF = some (P', false) ∧
    HashOk (Pl.keep M127 Unit) bigSem hash typG := by
  obtain ⟨hash, P', h1, h2⟩ := pipe_compiles_of (sem := bigSem) (f := typG) (H := Pl.keep M127 Unit) (c := false) (by decide +kernel)
  exact ⟨hash, P', by simpa only [compileTyped, typF_flat, compileFlattened, typG_propagated] using h1, h2⟩

/-- The arguments `[a, b]` and `S { x: x, b: c }`. -/
def typArgs (a b x : ZMod M127) (c : Bool) : List (AVal (ZMod M127)) := [.array [.field a, .field b], .struct [(['x'], .field x), (['b'], .bool c)]]

/-- On `[2, 5]` and `S { x: 7, b: true }` the function returns `(10, 5)`. -/
theorem typF_returns (O : Oracle M127 Unit) : ReturnsT O typF (typArgs 2 5 7 true) (.tuple [.field 10, .field 5]) := by
  have h25 : (2 : ZMod M127) ≠ 7 := by decide +kernel
  have h10 : (2 : ZMod M127) * 5 = 10 := by decide +kernel
  have h5 : (2 : ZMod M127) + 3 = 5 := by decide +kernel
  refine ⟨by simp [typF, typArgs, HasTypeL, HasTypeM, HasType], _,
    .cons (.definition (v := .tuple [.field 10, .field 2]) (u := .tuple [.field 10, .field 2]) ?_ ?_)
    (.cons (.definition (v := .field 5) (u := .tuple [.field 10, .field 5]) ?_ ?_) (.cons (.assertOk ?_)
    (.cons (.ret (v := .tuple [.field 10, .field 5]) ?_) .nil))), rfl⟩
  all_goals
    simp [evalT, evalS, evalL, initT, typF, typArgs, TState.setAll, TState.set, HasType, HasTypeM, HasTypeL, asArray, asUint, asField, asBool, selectVal,
      bind, Except.bind, setA, getA, TAssignee.root, FOp.eval, List.lookup, h10, h5, h25]

/-- The assertion fails on `[7, 4]` and `S { x: 7, b: true }`. -/
theorem typF_fails (O : Oracle M127 Unit) : AssertFailsT O typF (typArgs 7 4 7 true) := by
  refine ⟨by simp [typF, typArgs, HasTypeL, HasTypeM, HasType], [_, _], _, _, [_], _, rfl,
    .cons (.definition (v := .tuple [.field 28, .field 7]) (u := .tuple [.field 28, .field 7]) ?_ ?_)
    (.cons (.definition (v := .field 10) (u := .tuple [.field 28, .field 10]) ?_ ?_) .nil), ?_⟩
  all_goals
    have h28 : (7 : ZMod M127) * 4 = 28 := by decide +kernel
    have h10 : (7 : ZMod M127) + 3 = 10 := by decide +kernel
    simp [evalT, evalS, evalL, initT, typF, typArgs, TState.setAll, TState.set, HasType, HasTypeM, HasTypeL, asArray, asUint, asField, asBool, selectVal,
      bind, Except.bind, setA, getA, TAssignee.root, FOp.eval, List.lookup, h10, h28]

/-- All hypotheses are met: on the encoding of `[2, 5]` and `S { x: 7, b: true }` the compiled circuit accepts `10, 5` and nothing else, and executing it
returns this; and on the encoding of `[7, 4]` and `S { x: 7, b: true }` it accepts nothing. -/
example : ∃ hash P', compileTyped num (Pl.noFolder M127 Unit) .sourceAssemblyConstraint (Pl.keep M127 Unit) bigSem hash typF = some (P', false) ∧
    (∀ outs, (Realises P' [2, 5, 7, 1] outs ↔ outs = [10, 5]) ∧ (ExecutesTo bigSem P' [2, 5, 7, 1] outs ↔ outs = [10, 5])) ∧
    ∀ outs, ¬ Realises P' [7, 4, 7, 1] outs := by
  obtain ⟨hash, P', h1, h2⟩ := typF_compiles
  exact ⟨hash, P', h1,
    fun outs => C48_compiled_exact_partial num_inj (by norm_num) typF_accepted typF_free typG_free h1 h2 (typF_returns (Oracle.any M127 Unit)) outs,
    fun outs => C48_compiled_rejects_partial num_inj (by norm_num) typF_accepted typG_free h1 h2 (typF_fails (Oracle.any M127 Unit)) outs⟩

end Zok.Typed
