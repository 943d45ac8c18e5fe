import Verif.Lemmas.Flat
import Verif.Spec.TestField

/-
C07: lowering of flat statements to the intermediate representation (`zokrates_ast/src/ir/from_flat.rs`), and the
removal of blocks (`zokrates_ast/src/ir/clean.rs`).
-/

namespace Zok
variable {F : Type _} [Field F] [DecidableEq F] {Z : Type _}

/-- **C07**. Lowering succeeds on a list of statements exactly when every statement has the shape `linear == linear` or
`linear == linear * linear` (no panic); and then the lowered statements are satisfied by exactly the same assignments. -/
theorem C07_from_flat (ss : List (FlatStmt F Z)) :
    ((∃ ts, FlatStmt.toIrL ss = some ts) ↔ ∀ s ∈ ss, s.Lowerable) ∧
    ∀ ts, FlatStmt.toIrL ss = some ts → ∀ ρ, OneIsOne ρ → (SatAll ρ ts ↔ ∀ s ∈ ss, s.Sat ρ) := by
  refine ⟨?_, fun ts h ρ h1 => FlatStmt.toIrL_sat h1 ss ts h⟩
  rw [← FlatStmt.toIrL_isSome_iff, Option.isSome_iff_exists]

/-- **C07**. One statement is lowered to one statement, constraint for constraint: a condition keeps its error, and both
sides keep their values. -/
theorem C07_condition (lin quad : FlatExpr F) (e : RuntimeError) (t : Stmt F Z)
    (h : (FlatStmt.condition lin quad e : FlatStmt F Z).toIr = some t) :
    ∃ q l, t = .constraint ⟨q, l, some e⟩ ∧ ∀ ρ, OneIsOne ρ → q.val ρ = quad.val ρ ∧ l.val ρ = lin.val ρ := by
  rw [FlatStmt.toIr] at h
  split at h
  · rename_i q l hq hl
    cases h
    exact ⟨q, l, rfl, fun ρ h1 => ⟨FlatExpr.val_sideToQuad h1 hq, FlatExpr.val_toLinComb h1 _ _ hl⟩⟩
  · cases h

/-- **C07**. A directive keeps its outputs and its solver, and its inputs keep their values. -/
theorem C07_directive (o : List Variable) (s : Solver Z) (i : List (FlatExpr F)) (t : Stmt F Z)
    (h : (FlatStmt.directive o s i).toIr = some t) :
    ∃ qs : List (QuadComb F), t = .directive ⟨qs, o, s⟩ ∧
      ∀ ρ, OneIsOne ρ → qs.map (QuadComb.val ρ) = i.map (FlatExpr.val ρ) := by
  rw [FlatStmt.toIr] at h
  split at h
  · rename_i qs hq
    cases h
    refine ⟨qs, rfl, fun ρ h1 => ?_⟩
    clear * - hq h1
    induction i generalizing qs with
    | nil => simp at hq; subst hq; rfl
    | cons e i ih =>
      rw [List.mapM_cons] at hq
      simp only [Option.pure_def, Option.bind_eq_bind, Option.bind_eq_some_iff] at hq
      obtain ⟨q, hq, qs', hqs', hh⟩ := hq
      cases hh
      simp [FlatExpr.val_toQuadComb h1 hq, ih _ hqs']
  · cases h

/-- **C07**. Flattening blocks (`clean`) keeps the satisfying assignments, and no block is left. -/
theorem C07_clean (ss : List (Stmt F Z)) :
    (∀ t ∈ Stmt.cleanL ss, ∀ b, t ≠ .block b) ∧ ∀ ρ, SatAll ρ (Stmt.cleanL ss) ↔ SatAll ρ ss :=
  ⟨Stmt.cleanL_not_block ss, fun ρ => Stmt.cleanL_sat ρ ss⟩

/-! Non-vacuity: a product of sums lowers; a condition whose linear side is a product of two variables makes the
conversion panic (this is what `zokrates_codegen` emits for `assert(a * b < 10)`, see DESIGN.md). -/
example : (FlatStmt.condition (.add (.ident (Variable.new 0)) (.value 3))
    (.mul (.ident (Variable.new 1)) (.sub (.ident (Variable.new 2)) (.mul (.value 2) (.ident (Variable.new 0)))))
    .equal : FlatStmt (ZMod 7) Unit).Lowerable :=
  .condition (.add (.ident _) (.value _)) (.mul (.ident _) (.sub (.ident _) (.mulVI _ _)))

theorem C07_panics_on_nonlinear_side (a b : Variable) (e : FlatExpr F) (err : RuntimeError) :
    (FlatStmt.condition (.mul (.ident a) (.ident b)) e err : FlatStmt F Z).toIr = none := by
  rw [FlatStmt.toIr]
  cases e.sideToQuad <;> rfl

end Zok
