import Verif.Lemmas.ScopeIr

/-
Existence of honest assignments for well-scoped flat statements, and what they say about lowered statements.
-/

set_option linter.unusedSectionVars false
set_option linter.unusedVariables false

namespace Zok
variable {p : ℕ} {Z : Type} [Fact p.Prime] {D D' : Set Variable} {sem : SolverSem (ZMod p) Z}

theorem In.val_congr {e : FlatExpr (ZMod p)} (h : e.In D) {ρ σ : Assignment (ZMod p)} (hr : ∀ x ∈ D, ρ x = σ x) :
    e.val ρ = e.val σ := by
  induction e with
  | value => rfl
  | ident v => exact hr v h
  | add l r ihl ihr => simp only [FlatExpr.val, ihl h.1, ihr h.2]
  | sub l r ihl ihr => simp only [FlatExpr.val, ihl h.1, ihr h.2]
  | mul l r ihl ihr => simp only [FlatExpr.val, ihl h.1, ihr h.2]

mutual
/-- Honesty only depends on the variables in scope. -/
theorem Sc.hon_congr {D D' : Set Variable} {s : FlatStmt (ZMod p) Z} (h : Sc D s D') {ρ σ : Assignment (ZMod p)}
    (hr : ∀ x ∈ D', ρ x = σ x) (hh : FlatStmt.Hon sem ρ s) : FlatStmt.Hon sem σ s := by
  cases h with
  | @condition _ l q e h1 h2 h3 => exact .condition fun v hv he => absurd he (h3 v hv)
  | @computed _ v q h1 h2 =>
    cases hh with
    | condition hh =>
      refine .condition fun w hw he => ?_
      cases hw
      rw [← hr v (Set.mem_insert _ _), hh v rfl rfl]
      exact In.val_congr h1 fun x hx => hr x (Or.inr hx)
  | @definition _ v q h1 h2 =>
    cases hh with
    | definition hh =>
      refine .definition ?_
      rw [← hr v (Set.mem_insert _ _), hh]
      exact In.val_congr h1 fun x hx => hr x (Or.inr hx)
  | @directive _ o s i h1 h2 h3 =>
    cases hh with
    | directive hh =>
      refine .directive fun res hres hlen => ?_
      rw [← hh res ?_ hlen]
      · exact List.map_congr_left fun x hx => (hr x (Or.inr hx)).symm
      · rw [← hres]
        congr 1
        exact List.map_congr_left fun e he => In.val_congr (h1 e he) fun x hx => hr x (Or.inl hx)
  | log => exact .log _
  | @block _ ss _ h1 =>
    cases hh with
    | block hh => exact .block (Scs.hon_congr h1 hr hh)
theorem Scs.hon_congr {D D' : Set Variable} {ss : List (FlatStmt (ZMod p) Z)} (h : Scs D ss D')
    {ρ σ : Assignment (ZMod p)} (hr : ∀ x ∈ D', ρ x = σ x) (hh : ∀ s ∈ ss, FlatStmt.Hon sem ρ s) :
    ∀ s ∈ ss, FlatStmt.Hon sem σ s := by
  cases h with
  | nil => intro s hs; cases hs
  | cons h1 h2 =>
    have i1 := Sc.hon_congr h1 (fun x hx => hr x (Scs.subset h2 hx)) (hh _ List.mem_cons_self)
    have i2 := Scs.hon_congr h2 hr (fun s hs => hh s (List.mem_cons_of_mem _ hs))
    intro s hs
    rcases List.mem_cons.1 hs with rfl | hs
    · exact i1
    · exact i2 s hs
end

/-- The values of a list of distinct variables can be chosen. -/
theorem exists_update (o : List Variable) (hn : o.Nodup) (res : List (ZMod p)) (hl : res.length = o.length)
    (ρ0 : Assignment (ZMod p)) : ∃ ρ : Assignment (ZMod p), o.map ρ = res ∧ ∀ x, x ∉ o → ρ x = ρ0 x := by
  induction o generalizing res with
  | nil =>
    cases res with
    | nil => exact ⟨ρ0, rfl, fun _ _ => rfl⟩
    | cons => cases hl
  | cons v o ih =>
    cases res with
    | nil => cases hl
    | cons r res =>
      obtain ⟨n1, n2⟩ := List.nodup_cons.1 hn
      obtain ⟨ρ, h1, h2⟩ := ih n2 res (by simpa using hl)
      refine ⟨fun x => if x = v then r else ρ x, ?_, ?_⟩
      · rw [List.map_cons, if_pos rfl, ← h1]
        congr 1
        refine List.map_congr_left fun x hx => ?_
        rw [if_neg]
        rintro rfl; exact n1 hx
      · intro x hx
        show (if x = v then r else ρ x) = _
        rw [if_neg (fun h => hx (by simp [h])), h2 x (fun h => hx (by simp [h]))]

mutual
/-- The values of the variables a statement computes can be chosen honestly. -/
theorem Sc.exists_honest {D D' : Set Variable} {s : FlatStmt (ZMod p) Z} (h : Sc D s D') (ρ0 : Assignment (ZMod p)) :
    ∃ ρ : Assignment (ZMod p), (∀ x ∈ D, ρ x = ρ0 x) ∧ FlatStmt.Hon sem ρ s := by
  cases h with
  | @condition _ l q e h1 h2 h3 => exact ⟨ρ0, fun _ _ => rfl, .condition fun v hv he => absurd he (h3 v hv)⟩
  | @computed _ v q h1 h2 =>
    refine ⟨fun x => if x = v then q.val ρ0 else ρ0 x, fun x hx => if_neg (by rintro rfl; exact h2 hx), ?_⟩
    refine .condition fun w hw he => ?_
    cases hw
    rw [if_pos rfl]
    exact (In.val_congr h1 fun x hx => if_neg (by rintro rfl; exact h2 hx)).symm
  | @definition _ v q h1 h2 =>
    refine ⟨fun x => if x = v then q.val ρ0 else ρ0 x, fun x hx => if_neg (by rintro rfl; exact h2 hx), ?_⟩
    refine .definition ?_
    rw [if_pos rfl]
    exact (In.val_congr h1 fun x hx => if_neg (by rintro rfl; exact h2 hx)).symm
  | @directive _ o s i h1 h2 h3 =>
    have hi : ∀ ρ : Assignment (ZMod p), (∀ x ∈ D, ρ x = ρ0 x) → i.map (FlatExpr.val ρ) = i.map (FlatExpr.val ρ0) :=
      fun ρ hρ => List.map_congr_left fun e he => In.val_congr (h1 e he) hρ
    by_cases hex : ∃ res, executeSolver sem s (i.map (FlatExpr.val ρ0)) [] = .ok res ∧ res.length = o.length
    · obtain ⟨res, g1, g2⟩ := hex
      obtain ⟨ρ, g3, g4⟩ := exists_update o h2 res g2 ρ0
      have g5 : ∀ x ∈ D, ρ x = ρ0 x := fun x hx => g4 x fun hm => h3 x hm hx
      refine ⟨ρ, g5, .directive fun res' hres _ => ?_⟩
      rw [hi ρ g5, g1] at hres
      cases hres
      exact g3
    · exact ⟨ρ0, fun _ _ => rfl, .directive fun res hres hlen => absurd ⟨res, hres, hlen⟩ hex⟩
  | log => exact ⟨ρ0, fun _ _ => rfl, .log _⟩
  | @block _ ss _ h1 =>
    obtain ⟨ρ, g1, g2⟩ := Scs.exists_honest h1 ρ0
    exact ⟨ρ, g1, .block g2⟩
theorem Scs.exists_honest {D D' : Set Variable} {ss : List (FlatStmt (ZMod p) Z)} (h : Scs D ss D')
    (ρ0 : Assignment (ZMod p)) :
    ∃ ρ : Assignment (ZMod p), (∀ x ∈ D, ρ x = ρ0 x) ∧ ∀ s ∈ ss, FlatStmt.Hon sem ρ s := by
  cases h with
  | nil => exact ⟨ρ0, fun _ _ => rfl, fun s hs => by cases hs⟩
  | cons h1 h2 =>
    obtain ⟨ρ1, g1, g2⟩ := Sc.exists_honest h1 ρ0
    obtain ⟨ρ2, g3, g4⟩ := Scs.exists_honest h2 ρ1
    refine ⟨ρ2, fun x hx => by rw [g3 x (Sc.subset h1 hx), g1 x hx], fun s hs => ?_⟩
    rcases List.mem_cons.1 hs with rfl | hs
    · exact Sc.hon_congr h1 (fun x hx => (g3 x hx).symm) g2
    · exact g4 s hs
end

mutual
/-- The directives of a lowered statement return the values of their outputs. -/
theorem FlatStmt.Good.directives {ρ : Assignment (ZMod p)} (h1 : ρ Variable.one = 1) {s : FlatStmt (ZMod p) Z}
    (h : FlatStmt.Good sem ρ s) {t : Stmt (ZMod p) Z} (ht : s.toIr = some t) :
    ∀ d, .directive d ∈ t.clean → executeSolver sem d.solver (d.inputs.map (QuadComb.val ρ)) [] = .ok (d.outputs.map ρ) := by
  intro d hd
  cases s with
  | condition l q e =>
    rw [FlatStmt.toIr] at ht
    split at ht
    · cases ht; simp [Stmt.clean] at hd
    · cases ht
  | definition x e =>
    rw [FlatStmt.toIr] at ht
    split at ht
    · cases ht; simp [Stmt.clean] at hd
    · cases ht
  | directive o s i =>
    rw [FlatStmt.toIr] at ht
    split at ht
    · rename_i ins g1
      cases ht
      simp only [Stmt.clean, List.mem_singleton, Stmt.directive.injEq] at hd
      subst hd
      cases h with
      | directive h =>
        have : ins.map (QuadComb.val ρ) = i.map (FlatExpr.val ρ) := by
          rw [mapM_option_eq_some] at g1
          clear h
          induction g1 with
          | nil => rfl
          | cons g2 _ ih => rw [List.map_cons, List.map_cons, ih, FlatExpr.val_toQuadComb h1 g2]
        simp only [this]
        exact h
    · cases ht
  | log l =>
    rw [FlatStmt.toIr] at ht
    split at ht
    · cases ht; simp [Stmt.clean] at hd
    · cases ht
  | block ss =>
    rw [FlatStmt.toIr] at ht
    split at ht
    · rename_i ts g1
      cases ht
      rw [Stmt.clean] at hd
      cases h with
      | block h => exact FlatStmt.Good.directivesL h1 h g1 d hd
    · cases ht
theorem FlatStmt.Good.directivesL {ρ : Assignment (ZMod p)} (h1 : ρ Variable.one = 1) {ss : List (FlatStmt (ZMod p) Z)}
    (h : ∀ s ∈ ss, FlatStmt.Good sem ρ s) {ts : List (Stmt (ZMod p) Z)} (ht : FlatStmt.toIrL ss = some ts) :
    ∀ d, .directive d ∈ Stmt.cleanL ts →
      executeSolver sem d.solver (d.inputs.map (QuadComb.val ρ)) [] = .ok (d.outputs.map ρ) := by
  intro d hd
  cases ss with
  | nil => cases ht; cases hd
  | cons s ss =>
    rw [FlatStmt.toIrL] at ht
    split at ht
    · rename_i t ts' g1 g2
      cases ht
      rw [Stmt.cleanL] at hd
      rcases List.mem_append.1 hd with hd | hd
      · exact FlatStmt.Good.directives h1 (h s (by simp)) g1 d hd
      · exact FlatStmt.Good.directivesL h1 (fun s hs => h s (by simp [hs])) g2 d hd
    · cases ht
end

end Zok
