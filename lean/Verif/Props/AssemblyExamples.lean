import Verif.Props.Assembly
import Verif.Props.UintOptExamples

/-
Programs that meet the hypotheses of `Props/Assembly.lean` and `Props/TypeSound.lean`, and programs for which the conclusions are wrong
without them.
-/

namespace Zok
open Atr Flt

/-- A function with the parameters 0 and 1, an assembly block with a hint for the variable 2, a constraint, and the result 2. -/
def asmF (l r : FExpr (ZMod 97)) : ZFun (ZMod 97) Unit where
  params := [⟨0, .field, true⟩, ⟨1, .field, true⟩]
  returnCount := 1
  body := [.assembly [.assignment [2] () [0, 1], .constraint l r "c"], .ret [.field (.ident 2)]]

/-- If the constraint can be rewritten, so can the function. -/
theorem asmF_transform {l r l' r' : FExpr (ZMod 97)} (h : constraint l r = .ok (l', r')) : transformAssembly (asmF l r) = .ok (asmF l' r') := by
  simp only [transformAssembly, asmF, stmts, stmt, asms, asm, h]
  rfl

theorem asmF_returns {l r : FExpr (ZMod 97)} {a b c : ZMod 97}
    (h : ∃ v, evalF ((initState (asmF l r) [.field a, .field b]).setAll [2] [.field c]).env l = .ok v ∧
      evalF ((initState (asmF l r) [.field a, .field b]).setAll [2] [.field c]).env r = .ok v) :
    Returns (Oracle.any 97 Unit) (asmF l r) [a, b] [c] := by
  obtain ⟨v, h1, h2⟩ := h
  refine ⟨[.field a, .field b], _, [.field c], rfl, .cons (.assembly (.cons (.assignment (ins := [.field a, .field b]) (outs := [c]) rfl trivial rfl)
    (.cons (.ok (v := v) h1 h2) .nil))) (.cons (.ret (vs := [.field c]) rfl) .nil), rfl, rfl⟩

theorem asmF_not_returns {l r : FExpr (ZMod 97)} {a b c : ZMod 97}
    (h : ∀ v, evalF ((initState (asmF l r) [.field a, .field b]).setAll [2] [.field c]).env l = .ok v →
      evalF ((initState (asmF l r) [.field a, .field b]).setAll [2] [.field c]).env r ≠ .ok v) :
    ¬ Returns (Oracle.any 97 Unit) (asmF l r) [a, b] [c] := by
  rintro ⟨vs, σ, rs, h1, h2, h3, h4⟩
  cases h1
  cases h2 with
  | cons h5 h6 =>
    cases h5 with
    | assembly h5 =>
      cases h5 with
      | cons h7 h8 =>
        cases h7 with
        | @assignment _ _ _ ins outs h9 h10 h11 =>
          match outs, h11 with
          | [o], _ =>
            cases h8 with
            | cons h12 h13 =>
              cases h13
              cases h12 with
              | ok h14 h15 =>
                cases h6 with
                | cons h16 h17 =>
                  cases h17
                  cases h16 with
                  | ret h18 =>
                    have : o = c := by
                      have h19 : evalZs ((initState (asmF l r) [.field a, .field b]).setAll [2] [.field o]).env [.field (.ident 2)] = .ok [.field o] := rfl
                      rw [show (List.map ZVal.field [o] : List (ZVal 97)) = [.field o] from rfl, h19] at h18
                      cases h18
                      cases h3
                      simpa [ZVal.enc] using h4
                    subst this
                    exact h _ h14 h15

/-! ### A constraint with a common factor -/

/-- The left side of `x * y + 3 * (x * x) === z - 1`, for which no product of linear expressions is written. -/
def goodL : FExpr (ZMod 97) := .add (.mult (.ident 0) (.ident 1)) (.mult (.value 3) (.mult (.ident 0) (.ident 0)))
/-- `z - 1` -/
def goodR : FExpr (ZMod 97) := .sub (.ident 2) (.value 1)

theorem good_wt : WtFun (asmF goodL goodR) := by
  refine ⟨?_, [_], _, _, rfl, rfl, .cons (.assembly (.cons (.assignment ?_) (.cons (.constraint ?_ ?_) .nil))) (.cons (.ret ?_) .nil)⟩
  · intro q hq
    simp only [asmF, List.mem_cons, List.not_mem_nil, or_false] at hq
    rcases hq with rfl | rfl <;> trivial
  · intro x hx
    simp only [List.mem_cons, List.not_mem_nil, or_false] at hx
    rcases hx with rfl | rfl <;> exact Or.inl rfl
  · exact ⟨⟨rfl, rfl⟩, trivial, rfl, rfl⟩
  · exact ⟨rfl, trivial⟩
  · intro e he
    simp only [List.mem_cons, List.not_mem_nil, or_false] at he
    subst he
    exact (rfl : _ = _)

theorem good_quadratic : ZStmt.AtMostQuadraticL (asmF goodL goodR).body := by
  refine ⟨fun l r info h => ?_, trivial, trivial⟩
  simp only [List.mem_cons, List.not_mem_nil, or_false, reduceCtorEq, false_or, ZAsm.constraint.injEq] at h
  obtain ⟨rfl, rfl, rfl⟩ := h
  intro _ _
  exact ⟨.add (.mult (a := 1) (b := 1) (.ident le_rfl) (.ident le_rfl) le_rfl)
    (.mult (a := 0) (b := 2) .value (.mult (a := 1) (b := 1) (.ident le_rfl) (.ident le_rfl) le_rfl) le_rfl), .sub (.ident (by omega)) .value⟩

/-- The left side of the rewritten constraint: `1 - z`, the right side is `(- y - 3 x) * x`. -/
theorem good_constraint : ∃ l' r', constraint goodL goodR = .ok (l', r') ∧ (∃ x y, l' = .add x y) ∧ (∃ x y, r' = .mult x y) := by
  have h : (match constraint goodL goodR with
    | .ok (.add _ _, .mult _ _) => true
    | _ => false) = true := by decide +kernel
  split at h
  · exact ⟨_, _, by assumption, ⟨_, _, rfl⟩, ⟨_, _, rfl⟩⟩
  · cases h

/-- The hypotheses of `C41_same_partial` are met, and the function returns 3 * 2 + 3 * 9 + 1 = 34 on 3 and 2. -/
example : ∃ g, transformAssembly (asmF goodL goodR) = .ok g ∧ Returns (Oracle.any 97 Unit) g [3, 2] [34] ∧ ¬ Returns (Oracle.any 97 Unit) g [3, 2] [33] := by
  obtain ⟨l', r', h, -⟩ := good_constraint
  have h' := asmF_transform h
  have hs := C41_same_partial (O := Oracle.any 97 Unit) good_wt good_quadratic h' [3, 2]
  exact ⟨_, h', (hs.1 _).1 (asmF_returns ⟨33, by decide +kernel, by decide +kernel⟩), fun hr => asmF_not_returns (by
    intro v h1 h2
    have h3 : evalF ((initState (asmF goodL goodR) [.field 3, .field 2]).setAll [2] [.field 33]).env goodL = .ok 33 := by decide +kernel
    have h4 : evalF ((initState (asmF goodL goodR) [.field 3, .field 2]).setAll [2] [.field 33]).env goodR = .ok 32 := by decide +kernel
    rw [h3] at h1; rw [h4] at h2
    cases h1
    exact absurd h2 (by decide)) ((hs.1 _).2 hr)⟩

/-- The left side of `x * y + 3 * x === z - 1`. -/
def factorL : FExpr (ZMod 97) := .add (.mult (.ident 0) (.ident 1)) (.mult (.value 3) (.ident 0))

/-- The hypotheses of `C41_one_constraint_each_partial` are met: the program is compiled to a block with one directive and one constraint, and a constraint
for the result. -/
example : (factorL.Simple ∧ goodR.Simple) ∧
    ((transformAssembly (asmF factorL goodR)).toOption.bind fun g => (lowerProgram g).map fun P => (P.1.statements.map fun s => (Stmt.clean s).length, P.2)) =
      some ([2, 1], false) := by
  refine ⟨⟨.add (.mult .ident .ident (fun _ => nofun) (fun _ => nofun)) .literalV, .sub .ident .value⟩, by decide +kernel⟩

/-! ### A cubic constraint -/

/-- `(x * x) * x`; the constraint is `z === (x * x) * x`. -/
def cube : FExpr (ZMod 97) := .mult (.mult (.ident 0) (.ident 0)) (.ident 0)

theorem cube_constraint : constraint (.ident 2) cube = .ok (.ident 2, .value 0) := by
  have h : (match constraint (.ident 2) cube with
    | .ok (.ident 2, .value v) => decide (v = 0)
    | _ => false) = true := by decide +kernel
  split at h
  · rw [decide_eq_true_eq] at h; subst h; assumption
  · cases h

/-- `z === x * x * x` is accepted and becomes `z === 0`: the rewritten function returns 0 on 2, which the source does not, and does not
return 8, which the source does. -/
theorem C41_cubic_dropped : ∃ f g : ZFun (ZMod 97) Unit, WtFun f ∧ transformAssembly f = .ok g ∧
    (Returns (Oracle.any 97 Unit) g [2, 0] [0] ∧ ¬ Returns (Oracle.any 97 Unit) f [2, 0] [0]) ∧
    (Returns (Oracle.any 97 Unit) f [2, 0] [8] ∧ ¬ Returns (Oracle.any 97 Unit) g [2, 0] [8]) := by
  refine ⟨asmF (.ident 2) cube, asmF (.ident 2) (.value 0), ?_, asmF_transform cube_constraint,
    ⟨asmF_returns ⟨0, by decide +kernel, by decide +kernel⟩, asmF_not_returns ?_⟩, asmF_returns ⟨8, by decide +kernel, by decide +kernel⟩, asmF_not_returns ?_⟩
  · refine ⟨?_, [_], _, _, rfl, rfl, .cons (.assembly (.cons (.assignment ?_) (.cons (.constraint ?_ ?_) .nil))) (.cons (.ret ?_) .nil)⟩
    · intro q hq
      simp only [asmF, List.mem_cons, List.not_mem_nil, or_false] at hq
      rcases hq with rfl | rfl <;> trivial
    · intro x hx
      simp only [List.mem_cons, List.not_mem_nil, or_false] at hx
      rcases hx with rfl | rfl <;> exact Or.inl rfl
    · exact (rfl : _ = _)
    · exact ⟨⟨rfl, rfl⟩, rfl⟩
    · intro e he
      simp only [List.mem_cons, List.not_mem_nil, or_false] at he
      subst he
      exact (rfl : _ = _)
  · intro v h1 h2
    have h3 : evalF ((initState (asmF (.ident 2) cube) [.field 2, .field 0]).setAll [2] [.field 0]).env (.ident 2) = .ok 0 := by decide +kernel
    have h4 : evalF ((initState (asmF (.ident 2) cube) [.field 2, .field 0]).setAll [2] [.field 0]).env cube = .ok 8 := by decide +kernel
    rw [h3] at h1; rw [h4] at h2
    cases h1
    exact absurd h2 (by decide)
  · intro v h1 h2
    have h3 : evalF ((initState (asmF (.ident 2) (.value 0)) [.field 2, .field 0]).setAll [2] [.field 8]).env (.ident 2) = .ok 8 := by decide +kernel
    have h4 : evalF ((initState (asmF (.ident 2) (.value 0)) [.field 2, .field 0]).setAll [2] [.field 8]).env (.value 0) = .ok 0 := by decide +kernel
    rw [h3] at h1; rw [h4] at h2
    cases h1
    exact absurd h2 (by decide)

/-- Cubic constraints in different variables are rejected. -/
example : constraint (.ident 2 : FExpr (ZMod 97)) (.mult (.mult (.ident 0) (.ident 1)) (.ident 3)) = .error .nonQuadratic := by
  have h : (match constraint (.ident 2 : FExpr (ZMod 97)) (.mult (.mult (.ident 0) (.ident 1)) (.ident 3)) with
    | .error .nonQuadratic => true
    | _ => false) = true := by decide +kernel
  split at h
  · assumption
  · cases h

/-! ### Products with literals -/

/-- `2 * (x + y) === x * y` is left as it is, and cannot be lowered to a constraint: the compiler panics. -/
theorem C41_literal_times_sum_panics : ∃ f : ZFun (ZMod 97) Unit, transformAssembly f = .ok f ∧ (fromProgram f).isSome ∧ lowerProgram f = none := by
  refine ⟨asmF (.mult (.value 2) (.add (.ident 0) (.ident 1))) (.mult (.ident 0) (.ident 1)), asmF_transform rfl, by decide +kernel, ?_⟩
  have : (lowerProgram (asmF (.mult (.value 2) (.add (.ident 0) (.ident 1))) (.mult (.ident 0) (.ident 1)))).isNone = true := by decide +kernel
  simpa using this

/-- `z === (2 * (x * y)) * x` is accepted as quadratic, and is compiled to more than one constraint. -/
theorem C41_literal_times_product_accepted : ∃ f : ZFun (ZMod 97) Unit, transformAssembly f = .ok f ∧
    (lowerProgram f).map (fun P => P.1.statements.map fun s => (Stmt.clean s).length) = some [3, 1] := by
  refine ⟨asmF (.ident 2) (.mult (.mult (.value 2) (.mult (.ident 0) (.ident 1))) (.ident 0)), asmF_transform rfl, by decide +kernel⟩

/-! ### Well-typed programs -/

/-- The hypotheses of `C46_one_outcome` are met. -/
example : ∃! outs, Returns (Oracle.any Bn128 Unit) rotF [7] outs := by
  have hi : (decodeArgs rotF.params [(7 : ZMod Bn128)]).isSome := by decide +kernel
  have ho : ZStmt.OracleFreeL rotF.body := by simp [rotF, ZStmt.OracleFreeL, ZStmt.OracleFree]
  rcases C46_one_outcome (O := Oracle.any Bn128 Unit) rotF_wt ho [7] hi with h | ⟨h, _⟩
  · exact h.1
  · exact absurd ⟨[.uint 32 7], _, _, by decide +kernel, .cons (.definition (v := .uint 32 7) (by decide +kernel))
      (.cons (.definition (v := .uint 32 896) (by decide +kernel)) (.cons (.ret (vs := [.uint 32 896, .bool false]) (by decide +kernel)) .nil)), rfl, rfl⟩ (h _)

/-- A function that is not well-typed gets stuck. -/
example : ∃ f : ZFun (ZMod 97) Unit, Faults (Oracle.any 97 Unit) f [1] .stuck :=
  ⟨⟨[⟨0, .field, true⟩], [.ret [.field (.ident 1)]], 1⟩, [.field 1], rfl, .fault (.retFault rfl)⟩

/-- An unpacking that cannot succeed has no outcome at all: `Oracle.Total` is needed in `C46_outcome`. -/
example : ¬ (Oracle.any 97 Unit).Total := by
  rintro ⟨-, h⟩
  obtain ⟨bl, h1, h2, h3⟩ := h 0 1
  have : bl = [] := by simpa using h2
  subst this
  exact absurd h3 (by decide +kernel)

end Zok
