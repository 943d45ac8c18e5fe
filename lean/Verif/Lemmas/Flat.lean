import Verif.Spec.Flat
import Verif.Lemmas.LinComb

set_option linter.unusedSectionVars false

namespace Zok
variable {F : Type _} [Field F] [DecidableEq F] {Z : Type _}

namespace FlatExpr

theorem linear_iff (e : FlatExpr F) : e.Linear ↔ e.isLinear = true := by
  constructor
  · intro h; induction h <;> simp_all [isLinear]
  · intro h
    induction e with
    | value n => exact .value n
    | ident v => exact .ident v
    | add l r ihl ihr => simp [isLinear] at h; exact .add (ihl h.1) (ihr h.2)
    | sub l r ihl ihr => simp [isLinear] at h; exact .sub (ihl h.1) (ihr h.2)
    | mul l r =>
      cases l <;> cases r <;> simp [isLinear] at h
      · exact .mulVV _ _
      · exact .mulVI _ _
      · exact .mulIV _ _

theorem toLinComb_isSome (e : FlatExpr F) : e.toLinComb.isSome = e.isLinear := by
  induction e with
  | value n => simp only [toLinComb, isLinear]; split <;> rfl
  | ident v => rfl
  | add l r ihl ihr =>
    simp only [isLinear, ← ihl, ← ihr, toLinComb]
    cases l.toLinComb <;> cases r.toLinComb <;> rfl
  | sub l r ihl ihr =>
    simp only [isLinear, ← ihl, ← ihr, toLinComb]
    cases l.toLinComb <;> cases r.toLinComb <;> rfl
  | mul l r => cases l <;> cases r <;> rfl

theorem toLinComb_isSome_iff (e : FlatExpr F) : e.toLinComb.isSome = true ↔ e.Linear := by
  rw [toLinComb_isSome, linear_iff]

theorem val_toLinComb {ρ : Assignment F} (h1 : OneIsOne ρ) (e : FlatExpr F) (l : LinComb F)
    (h : e.toLinComb = some l) : l.val ρ = e.val ρ := by
  induction e generalizing l with
  | value n =>
    simp only [toLinComb] at h
    split at h <;> cases h
    · rename_i h0; simp [h0, val, LinComb.zero, LinComb.val]
    · have : ρ Variable.one = 1 := h1
      simp [LinComb.summand, LinComb.val, val, this]
  | ident v => cases h; simp [LinComb.ofVar, LinComb.val, val]
  | add l r ihl ihr =>
    simp only [toLinComb] at h
    split at h
    · rename_i a b ha hb
      cases h
      rw [LinComb.val_add, ihl _ ha, ihr _ hb]; rfl
    · cases h
  | sub l r ihl ihr =>
    simp only [toLinComb] at h
    split at h
    · rename_i a b ha hb
      cases h
      rw [LinComb.val_sub, ihl _ ha, ihr _ hb]; rfl
    · cases h
  | mul e₁ e₂ =>
    have h1 : ρ Variable.one = 1 := h1
    cases e₁ <;> cases e₂ <;> first | (exact nomatch (show (none : Option (LinComb F)) = some _ from h)) | skip
    all_goals
      have h := (Option.some.inj h).symm
      subst h
      simp [LinComb.summand, LinComb.val, val, h1, mul_comm]

theorem mulToQuad_isSome_iff (l r : FlatExpr F) : (mulToQuad l r).isSome = true ↔ l.Linear ∧ r.Linear := by
  rw [← toLinComb_isSome_iff, ← toLinComb_isSome_iff, mulToQuad]
  cases l.toLinComb <;> cases r.toLinComb <;> simp

theorem val_mulToQuad {ρ : Assignment F} (h1 : OneIsOne ρ) {l r : FlatExpr F} {q : QuadComb F}
    (h : mulToQuad l r = some q) : q.val ρ = l.val ρ * r.val ρ := by
  unfold mulToQuad at h
  split at h
  · rename_i a b ha hb
    cases h
    simp [QuadComb.val, val_toLinComb h1 l a ha, val_toLinComb h1 r b hb]
  · cases h

theorem quadratic_mul_iff (l r : FlatExpr F) : (FlatExpr.mul l r).Quadratic ↔ l.Linear ∧ r.Linear := by
  constructor
  · intro h
    cases h with
    | linear h => cases h <;> exact ⟨by constructor, by constructor⟩
    | mul h1 h2 => exact ⟨h1, h2⟩
  · rintro ⟨h1, h2⟩; exact .mul h1 h2

theorem quadratic_of_not_mul {e : FlatExpr F} (h : ∀ l r, e ≠ .mul l r) : e.Quadratic ↔ e.Linear := by
  constructor
  · intro hq
    cases hq with
    | linear h => exact h
    | mul => exact absurd rfl (h _ _)
  · exact .linear

theorem toQuadComb_isSome_iff (e : FlatExpr F) : e.toQuadComb.isSome = true ↔ e.Quadratic := by
  unfold toQuadComb
  split
  · rename_i h
    have hl := (linear_iff e).2 h
    simp only [Option.isSome_map, toLinComb_isSome, h, true_iff]
    exact .linear hl
  · rename_i h
    split
    · rw [mulToQuad_isSome_iff, quadratic_mul_iff]
    · rename_i hn
      rw [quadratic_of_not_mul hn, linear_iff]
      simp [h]

theorem val_toQuadComb {ρ : Assignment F} (h1 : OneIsOne ρ) {e : FlatExpr F} {q : QuadComb F}
    (h : e.toQuadComb = some q) : q.val ρ = e.val ρ := by
  unfold toQuadComb at h
  split at h
  · simp only [Option.map_eq_some_iff] at h
    obtain ⟨a, ha, rfl⟩ := h
    rw [QuadComb.val_ofLin ρ a h1, val_toLinComb h1 e a ha]
  · split at h
    · exact val_mulToQuad h1 h
    · cases h

theorem sideToQuad_isSome_iff (e : FlatExpr F) : e.sideToQuad.isSome = true ↔ e.Quadratic := by
  unfold sideToQuad
  split
  · rw [mulToQuad_isSome_iff, quadratic_mul_iff]
  · rename_i hn
    rw [quadratic_of_not_mul (by simpa using hn), Option.isSome_map, toLinComb_isSome, linear_iff]

theorem val_sideToQuad {ρ : Assignment F} (h1 : OneIsOne ρ) {e : FlatExpr F} {q : QuadComb F}
    (h : e.sideToQuad = some q) : q.val ρ = e.val ρ := by
  unfold sideToQuad at h
  split at h
  · exact val_mulToQuad h1 h
  · simp only [Option.map_eq_some_iff] at h
    obtain ⟨a, ha, rfl⟩ := h
    rw [QuadComb.val_ofLin ρ a h1, val_toLinComb h1 _ a ha]

theorem val_congr {ρ σ : Assignment F} {e : FlatExpr F} (h : ∀ x ∈ e.vars, ρ x = σ x) : e.val ρ = e.val σ := by
  induction e with
  | value n => rfl
  | ident v => exact h v (by simp [vars])
  | add l r ihl ihr => simp only [val]; rw [ihl, ihr] <;> intro x hx <;> apply h <;> simp [vars, hx]
  | sub l r ihl ihr => simp only [val]; rw [ihl, ihr] <;> intro x hx <;> apply h <;> simp [vars, hx]
  | mul l r ihl ihr => simp only [val]; rw [ihl, ihr] <;> intro x hx <;> apply h <;> simp [vars, hx]

end FlatExpr

theorem mapM_isSome_iff {α β : Type _} (f : α → Option β) (l : List α) :
    (l.mapM f).isSome = true ↔ ∀ a ∈ l, (f a).isSome = true := by
  induction l with
  | nil => simp
  | cons a l ih =>
    cases h : f a with
    | none => simp [List.mapM_cons, h]
    | some b =>
      cases h2 : l.mapM f with
      | none => simp [List.mapM_cons, h, h2] at ih ⊢; exact ih
      | some c => simp [List.mapM_cons, h, h2] at ih ⊢; exact ih

theorem FlatStmt.lowerable_block {ss : List (FlatStmt F Z)} :
    (FlatStmt.block ss).Lowerable ↔ ∀ s ∈ ss, s.Lowerable := by
  constructor
  · intro h; cases h; assumption
  · exact .block

theorem FlatStmt.sat_block {ρ : Assignment F} {ss : List (FlatStmt F Z)} :
    (FlatStmt.block ss).Sat ρ ↔ ∀ s ∈ ss, s.Sat ρ := by
  constructor
  · intro h; cases h; assumption
  · exact .block

theorem Stmt.sat_block {ρ : Assignment F} {ss : List (Stmt F Z)} :
    (Stmt.block ss).Sat ρ ↔ ∀ s ∈ ss, s.Sat ρ := by
  constructor
  · intro h; cases h; assumption
  · exact .block

theorem Stmt.sat_constraint {ρ : Assignment F} {c : Constraint F} :
    (Stmt.constraint c : Stmt F Z).Sat ρ ↔ c.quad.val ρ = c.lin.val ρ := by
  constructor
  · intro h; cases h; assumption
  · exact .constraint

mutual
theorem FlatStmt.toIr_isSome_iff (s : FlatStmt F Z) : s.toIr.isSome = true ↔ s.Lowerable := by
  cases s with
  | condition lin quad error =>
    rw [toIr]
    constructor
    · intro h
      refine .condition ?_ ?_
      · rw [← FlatExpr.toLinComb_isSome_iff]
        revert h; cases quad.sideToQuad <;> cases lin.toLinComb <;> simp
      · rw [← FlatExpr.sideToQuad_isSome_iff]
        revert h; cases quad.sideToQuad <;> cases lin.toLinComb <;> simp
    · intro h
      cases h with
      | condition h1 h2 =>
        rw [← FlatExpr.toLinComb_isSome_iff] at h1
        rw [← FlatExpr.sideToQuad_isSome_iff] at h2
        revert h1 h2; cases quad.sideToQuad <;> cases lin.toLinComb <;> simp
  | definition x e =>
    rw [toIr]
    have := FlatExpr.sideToQuad_isSome_iff e
    constructor
    · intro h
      refine .definition (this.1 ?_)
      revert h; cases e.sideToQuad <;> simp
    · intro h
      cases h with
      | definition h =>
        have h := this.2 h
        revert h; cases e.sideToQuad <;> simp
  | directive o s i =>
    rw [toIr]
    have := mapM_isSome_iff FlatExpr.toQuadComb i
    simp only [FlatExpr.toQuadComb_isSome_iff] at this
    constructor
    · intro h
      refine .directive (this.1 ?_)
      revert h; cases i.mapM FlatExpr.toQuadComb <;> simp
    · intro h
      cases h with
      | directive h =>
        have h := this.2 h
        revert h; cases i.mapM FlatExpr.toQuadComb <;> simp
  | log l =>
    rw [toIr]
    have := mapM_isSome_iff (fun e => e.mapM (FlatExpr.toLinComb (F := F))) l
    rw [forall₂_congr (fun (es : List (FlatExpr F)) (_ : es ∈ l) => mapM_isSome_iff FlatExpr.toLinComb es)] at this
    simp only [FlatExpr.toLinComb_isSome_iff] at this
    constructor
    · intro h
      refine .log (this.1 ?_)
      revert h; cases l.mapM (fun e => e.mapM (FlatExpr.toLinComb (F := F))) <;> simp
    · intro h
      cases h with
      | log h =>
        have h := this.2 h
        revert h; cases l.mapM (fun e => e.mapM (FlatExpr.toLinComb (F := F))) <;> simp
  | block ss =>
    rw [toIr, lowerable_block, ← FlatStmt.toIrL_isSome_iff ss]
    cases FlatStmt.toIrL ss <;> simp

theorem FlatStmt.toIrL_isSome_iff (ss : List (FlatStmt F Z)) :
    (FlatStmt.toIrL ss).isSome = true ↔ ∀ s ∈ ss, s.Lowerable := by
  cases ss with
  | nil => simp [toIrL]
  | cons s ss =>
    rw [toIrL, List.forall_mem_cons, ← FlatStmt.toIr_isSome_iff s, ← FlatStmt.toIrL_isSome_iff ss]
    cases s.toIr <;> cases FlatStmt.toIrL ss <;> simp
end

mutual
theorem FlatStmt.toIr_sat {ρ : Assignment F} (h1 : OneIsOne ρ) (s : FlatStmt F Z) (t : Stmt F Z) (h : s.toIr = some t) :
    t.Sat ρ ↔ s.Sat ρ := by
  cases s with
  | condition lin quad error =>
    rw [toIr] at h
    split at h
    · rename_i q l hq hl
      cases h
      rw [Stmt.sat_constraint]
      simp only [FlatExpr.val_sideToQuad h1 hq, FlatExpr.val_toLinComb h1 _ _ hl]
      constructor
      · intro h; exact .condition h.symm
      · intro h; cases h with | condition h => exact h.symm
    · cases h
  | definition x e =>
    rw [toIr] at h
    split at h
    · rename_i q hq
      cases h
      rw [Stmt.sat_constraint]
      simp only [FlatExpr.val_sideToQuad h1 hq]
      have : LinComb.val ρ (LinComb.ofVar x) = ρ x := by simp [LinComb.ofVar, LinComb.val]
      rw [this]
      constructor
      · intro h; exact .definition h.symm
      · intro h; cases h with | definition h => exact h.symm
    · cases h
  | directive o s i =>
    rw [toIr] at h
    split at h
    · cases h; exact ⟨fun _ => .directive .., fun _ => .directive ..⟩
    · cases h
  | log l =>
    rw [toIr] at h
    split at h
    · cases h; exact ⟨fun _ => .log _, fun _ => .log _⟩
    · cases h
  | block ss =>
    rw [toIr] at h
    split at h
    · rename_i ts hts
      cases h
      rw [Stmt.sat_block, FlatStmt.sat_block]
      exact FlatStmt.toIrL_sat h1 ss ts hts
    · cases h

theorem FlatStmt.toIrL_sat {ρ : Assignment F} (h1 : OneIsOne ρ) (ss : List (FlatStmt F Z)) (ts : List (Stmt F Z))
    (h : FlatStmt.toIrL ss = some ts) : (∀ t ∈ ts, t.Sat ρ) ↔ ∀ s ∈ ss, s.Sat ρ := by
  cases ss with
  | nil => rw [toIrL] at h; cases h; simp
  | cons s ss =>
    rw [toIrL] at h
    split at h
    · rename_i t ts ht hts
      cases h
      rw [List.forall_mem_cons, List.forall_mem_cons, FlatStmt.toIr_sat h1 s t ht, FlatStmt.toIrL_sat h1 ss ts hts]
    · cases h
end

mutual
theorem Stmt.clean_sat (ρ : Assignment F) (s : Stmt F Z) : (∀ t ∈ s.clean, t.Sat ρ) ↔ s.Sat ρ := by
  cases s with
  | block ss => rw [clean, sat_block]; exact Stmt.cleanL_sat ρ ss
  | _ => simp [clean]
theorem Stmt.cleanL_sat (ρ : Assignment F) (ss : List (Stmt F Z)) : (∀ t ∈ Stmt.cleanL ss, t.Sat ρ) ↔ ∀ s ∈ ss, s.Sat ρ := by
  cases ss with
  | nil => simp [cleanL]
  | cons s ss =>
    rw [cleanL, List.forall_mem_cons, ← Stmt.clean_sat ρ s, ← Stmt.cleanL_sat ρ ss]
    simp only [List.mem_append]
    constructor
    · intro h; exact ⟨fun t ht => h t (.inl ht), fun t ht => h t (.inr ht)⟩
    · rintro ⟨ha, hb⟩ t (ht | ht)
      · exact ha t ht
      · exact hb t ht
end

mutual
theorem Stmt.clean_not_block (s : Stmt F Z) : ∀ t ∈ s.clean, ∀ b, t ≠ .block b := by
  cases s with
  | block ss => rw [clean]; exact Stmt.cleanL_not_block ss
  | _ => simp [clean]
theorem Stmt.cleanL_not_block (ss : List (Stmt F Z)) : ∀ t ∈ Stmt.cleanL ss, ∀ b, t ≠ .block b := by
  cases ss with
  | nil => simp [cleanL]
  | cons s ss =>
    rw [cleanL]
    intro t ht
    rcases List.mem_append.1 ht with h | h
    · exact Stmt.clean_not_block s t h
    · exact Stmt.cleanL_not_block ss t h
end

/-! Balanced sums. -/

theorem val_flatSummands (ρ : Assignment F) (v : List (F × FlatExpr F)) :
    (flatSummands v).val ρ = (v.map (fun t => t.1 * t.2.val ρ)).sum := by
  induction hn : v.length using Nat.strong_induction_on generalizing v with
  | _ n ih =>
    match v, hn with
    | [], _ => simp [flatSummands, FlatExpr.val]
    | [(k, e)], _ => simp [flatSummands, FlatExpr.val]
    | a :: b :: v, hn =>
      rw [flatSummands]
      simp only [FlatExpr.val]
      rw [ih _ (by simp [List.length_take] at hn ⊢; omega) _ rfl, ih _ (by simp [List.length_drop] at hn ⊢; omega) _ rfl,
        ← List.sum_append, ← List.map_append, List.take_append_drop]

end Zok
