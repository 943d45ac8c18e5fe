import Verif.Lemmas.Scope3
import Verif.Lemmas.CmpStmt2
import Verif.Props.Optimizer
import Verif.Props.Compile

/-
From well-scoped flat statements to programs in single-assignment form, and the existence of honest assignments.
-/

set_option linter.unusedSectionVars false
set_option linter.unusedVariables false

namespace Zok
variable {p : ℕ} {Z : Type} [Fact p.Prime] {D D' : Set Variable}

/-! ### Variables of lowered expressions -/

theorem toLinComb_vars {e : FlatExpr (ZMod p)} (h : e.In D) {l : LinComb (ZMod p)} (hl : e.toLinComb = some l) :
    ∀ x ∈ l.vars, x ∈ D ∨ x = Variable.one := by
  induction e generalizing l with
  | value n =>
    rw [FlatExpr.toLinComb] at hl
    split at hl <;> cases hl
    · intro x hx; cases hx
    · intro x hx; exact Or.inr (by simpa [LinComb.vars_eq, LinComb.summand] using hx)
  | ident v =>
    cases hl
    intro x hx
    have : x = v := by simpa [LinComb.vars_eq, LinComb.ofVar] using hx
    rw [this]; exact Or.inl h
  | add a b iha ihb =>
    rw [FlatExpr.toLinComb] at hl
    split at hl <;> cases hl
    rename_i la lb h1 h2
    intro x hx
    simp only [LinComb.vars_eq, LinComb.add, List.map_append, List.mem_append] at hx
    exact hx.elim (iha h.1 h1 x) (ihb h.2 h2 x)
  | sub a b iha ihb =>
    rw [FlatExpr.toLinComb] at hl
    split at hl <;> cases hl
    rename_i la lb h1 h2
    intro x hx
    simp only [LinComb.vars_eq, LinComb.sub, List.map_append, List.mem_append, List.map_map] at hx
    exact hx.elim (iha h.1 h1 x) (fun hx => ihb h.2 h2 x (by simpa [LinComb.vars_eq, Function.comp_def] using hx))
  | mul a b iha ihb =>
    have key : ∀ (n : ZMod p) (v : Variable), v ∈ D → ∀ x ∈ LinComb.vars (LinComb.summand n v), x ∈ D ∨ x = Variable.one := by
      intro n v hv x hx
      have : x = v := by simpa [LinComb.vars_eq, LinComb.summand] using hx
      rw [this]; exact Or.inl hv
    cases a <;> cases b <;> simp only [FlatExpr.toLinComb, Option.some.injEq, reduceCtorEq] at hl
    · rw [← hl]; intro x hx; exact Or.inr (by simpa [LinComb.vars_eq, LinComb.summand] using hx)
    · rw [← hl]; exact key _ _ h.2
    · rw [← hl]; exact key _ _ h.1

theorem mulToQuad_vars {a b : FlatExpr (ZMod p)} (ha : a.In D) (hb : b.In D) {q : QuadComb (ZMod p)}
    (hq : FlatExpr.mulToQuad a b = some q) : ∀ x ∈ q.vars, x ∈ D ∨ x = Variable.one := by
  unfold FlatExpr.mulToQuad at hq
  split at hq <;> cases hq
  rename_i la lb h1 h2
  intro x hx
  rcases QuadComb.mem_vars.1 hx with hx | hx
  · exact toLinComb_vars ha h1 x hx
  · exact toLinComb_vars hb h2 x hx

theorem ofLin_vars {e : FlatExpr (ZMod p)} (h : e.In D) {q : QuadComb (ZMod p)}
    (hq : e.toLinComb.map QuadComb.ofLin = some q) : ∀ x ∈ q.vars, x ∈ D ∨ x = Variable.one := by
  obtain ⟨l, h1, rfl⟩ := Option.map_eq_some_iff.1 hq
  intro x hx
  rcases QuadComb.vars_ofLin hx with hx | hx
  · exact Or.inr hx
  · exact toLinComb_vars h h1 x hx

theorem sideToQuad_vars {e : FlatExpr (ZMod p)} (h : e.In D) {q : QuadComb (ZMod p)} (hq : e.sideToQuad = some q) :
    ∀ x ∈ q.vars, x ∈ D ∨ x = Variable.one := by
  unfold FlatExpr.sideToQuad at hq
  split at hq
  · exact mulToQuad_vars h.1 h.2 hq
  · exact ofLin_vars h hq

theorem toQuadComb_vars {e : FlatExpr (ZMod p)} (h : e.In D) {q : QuadComb (ZMod p)} (hq : e.toQuadComb = some q) :
    ∀ x ∈ q.vars, x ∈ D ∨ x = Variable.one := by
  unfold FlatExpr.toQuadComb at hq
  split at hq
  · exact ofLin_vars h hq
  · split at hq
    · exact mulToQuad_vars h.1 h.2 hq
    · cases hq

theorem ofVar_vars (v x : Variable) : x ∈ LinComb.vars (LinComb.ofVar v : LinComb (ZMod p)) ↔ x = v := by
  simp [LinComb.vars_eq, LinComb.ofVar]

/-! ### Single assignment -/

theorem directivesFresh_append {F : Type _} [Field F] {seen : List Variable} {a b : List (Stmt F Z)} :
    DirectivesFresh seen (a ++ b) ↔ DirectivesFresh seen a ∧ DirectivesFresh (seen ++ Stmt.varsL a) b := by
  induction a generalizing seen with
  | nil => simp [DirectivesFresh, Stmt.varsL]
  | cons s a ih =>
    simp only [List.cons_append, DirectivesFresh, ih, Stmt.varsL, and_assoc, List.append_assoc]

theorem forall₂_right {α β : Type _} {R : α → β → Prop} {l : List α} {r : List β} (h : List.Forall₂ R l r) {b : β}
    (hb : b ∈ r) : ∃ a ∈ l, R a b := by
  induction h with
  | nil => cases hb
  | cons h1 _ ih =>
    rcases List.mem_cons.1 hb with rfl | hb
    · exact ⟨_, by simp, h1⟩
    · obtain ⟨a, ha, h2⟩ := ih hb
      exact ⟨a, by simp [ha], h2⟩

theorem wellScoped_append' {seen : List Variable} {a b : List (Stmt (ZMod p) Z)} :
    WellScoped seen (a ++ b) ↔ WellScoped seen a ∧ WellScoped (seen ++ Stmt.varsL a) b := by
  classical exact wellScoped_append

/-- What scoping says about lowered statements. -/
structure IrSc (D : Set Variable) (ts : List (Stmt (ZMod p) Z)) (D' : Set Variable) : Prop where
  wellScoped : ∀ seen : List Variable, (∀ x, x ∈ D ∨ x = Variable.one → x ∈ seen) → WellScoped seen ts
  sub : D ⊆ D'
  grows : ∀ x ∈ D', x ∈ D ∨ x ∈ Stmt.varsL ts
  vars : ∀ x ∈ Stmt.varsL ts, x ∈ D' ∨ x = Variable.one
  fresh : ∀ (seen : List Variable) (X : Set Variable), (∀ x ∈ seen, x ∈ D ∨ x ∈ X) → (∀ x ∈ D', x ∉ X) →
    Variable.one ∈ X → DirectivesFresh seen ts

theorem IrSc.append {D D' D'' : Set Variable} {a b : List (Stmt (ZMod p) Z)} (h1 : IrSc D a D') (h2 : IrSc D' b D'') : IrSc D (a ++ b) D'' := by
  have hv : ∀ x, x ∈ Stmt.varsL (a ++ b) ↔ x ∈ Stmt.varsL a ∨ x ∈ Stmt.varsL b := by
    intro x
    simp only [Stmt.mem_varsL, List.mem_append]
    constructor
    · rintro ⟨s, h | h, h'⟩
      · exact Or.inl ⟨s, h, h'⟩
      · exact Or.inr ⟨s, h, h'⟩
    · rintro (⟨s, h, h'⟩ | ⟨s, h, h'⟩)
      · exact ⟨s, Or.inl h, h'⟩
      · exact ⟨s, Or.inr h, h'⟩
  refine ⟨fun seen hs => wellScoped_append'.2 ⟨h1.wellScoped seen hs, h2.wellScoped _ ?_⟩, h1.sub.trans h2.sub, ?_, ?_, ?_⟩
  · rintro x (hx | hx)
    · rcases h1.grows x hx with h | h
      · exact List.mem_append.2 (Or.inl (hs x (Or.inl h)))
      · exact List.mem_append.2 (Or.inr h)
    · exact List.mem_append.2 (Or.inl (hs x (Or.inr hx)))
  · intro x hx
    rw [hv]
    rcases h2.grows x hx with h | h
    · rcases h1.grows x h with h | h
      · exact Or.inl h
      · exact Or.inr (Or.inl h)
    · exact Or.inr (Or.inr h)
  · intro x hx
    rcases (hv x).1 hx with h | h
    · exact (h1.vars x h).imp (fun h => h2.sub h) id
    · exact h2.vars x h
  · intro seen X hs hX h0
    refine directivesFresh_append.2 ⟨h1.fresh seen X hs (fun x hx => hX x (h2.sub hx)) h0, h2.fresh _ X ?_ hX h0⟩
    intro x hx
    rcases List.mem_append.1 hx with h | h
    · rcases hs x h with h | h
      · exact Or.inl (h1.sub h)
      · exact Or.inr h
    · rcases h1.vars x h with h | h
      · exact Or.inl h
      · rw [h]; exact Or.inr h0

theorem IrSc.nil : IrSc D ([] : List (Stmt (ZMod p) Z)) D :=
  ⟨fun _ _ => trivial, le_refl _, fun x h => Or.inl h, (fun x h => by cases h), fun _ _ _ _ _ => trivial⟩

mutual
theorem Sc.toIr {D D' : Set Variable} {s : FlatStmt (ZMod p) Z} (h : Sc D s D') {t : Stmt (ZMod p) Z}
    (ht : s.toIr = some t) : IrSc D t.clean D' := by
  cases h with
  | @condition _ l q e h1 h2 h3 =>
    rw [FlatStmt.toIr] at ht
    split at ht
    · rename_i q' l' g1 g2
      cases ht
      have hq := sideToQuad_vars h2 g1
      have hl := toLinComb_vars h1 g2
      refine ⟨fun seen hs => ⟨⟨fun x hx => hs x (hq x hx), Or.inr fun x hx => hs x (hl x hx)⟩, trivial⟩, le_refl _,
        fun x h => Or.inl h, ?_, fun _ _ _ _ _ => ⟨trivial, trivial⟩⟩
      intro x hx
      simp only [Stmt.clean, Stmt.varsL, Stmt.vars, List.append_nil, List.mem_append] at hx
      exact hx.elim (hq x) (hl x)
    · cases ht
  | @computed _ v q h1 h2 =>
    rw [FlatStmt.toIr] at ht
    split at ht
    · rename_i q' l' g1 g2
      cases ht
      have hq := sideToQuad_vars h1 g1
      rw [FlatExpr.toLinComb] at g2
      cases g2
      refine ⟨fun seen hs => ⟨⟨fun x hx => hs x (hq x hx), Or.inl ⟨v, rfl⟩⟩, trivial⟩, Set.subset_insert _ _, ?_, ?_,
        fun _ _ _ _ _ => ⟨trivial, trivial⟩⟩
      · rintro x (rfl | h)
        · exact Or.inr (by simp [Stmt.clean, Stmt.varsL, Stmt.vars, ofVar_vars])
        · exact Or.inl h
      · intro x hx
        simp only [Stmt.clean, Stmt.varsL, Stmt.vars, List.append_nil, List.mem_append, ofVar_vars] at hx
        rcases hx with h | h
        · exact (hq x h).imp Or.inr id
        · exact Or.inl (Or.inl h)
    · cases ht
  | @definition _ v q h1 h2 =>
    rw [FlatStmt.toIr] at ht
    split at ht
    · rename_i q' g1
      cases ht
      have hq := sideToQuad_vars h1 g1
      refine ⟨fun seen hs => ⟨⟨fun x hx => hs x (hq x hx), Or.inl ⟨v, rfl⟩⟩, trivial⟩, Set.subset_insert _ _, ?_, ?_,
        fun _ _ _ _ _ => ⟨trivial, trivial⟩⟩
      · rintro x (rfl | h)
        · exact Or.inr (by simp [Stmt.clean, Stmt.varsL, Stmt.vars, ofVar_vars])
        · exact Or.inl h
      · intro x hx
        simp only [Stmt.clean, Stmt.varsL, Stmt.vars, List.append_nil, List.mem_append, ofVar_vars] at hx
        rcases hx with h | h
        · exact (hq x h).imp Or.inr id
        · exact Or.inl (Or.inl h)
    · cases ht
  | @directive _ o s i h1 h2 h3 =>
    rw [FlatStmt.toIr] at ht
    split at ht
    · rename_i ins g1
      cases ht
      have hin : ∀ x ∈ ins.flatMap QuadComb.vars, x ∈ D ∨ x = Variable.one := by
        intro x hx
        obtain ⟨q, hq, hx⟩ := List.mem_flatMap.1 hx
        rw [mapM_option_eq_some] at g1
        obtain ⟨e, he, g2⟩ := forall₂_right g1 hq
        exact toQuadComb_vars (h1 e he) g2 x hx
      refine ⟨fun seen hs => ⟨fun x hx => hs x (hin x hx), trivial⟩, Set.subset_union_left, ?_, ?_, ?_⟩
      · rintro x (h | h)
        · exact Or.inl h
        · refine Or.inr ?_
          have h : x ∈ o := h
          simp [Stmt.clean, Stmt.varsL, Stmt.vars, h]
      · intro x hx
        simp only [Stmt.clean, Stmt.varsL, Stmt.vars, List.append_nil, List.mem_append] at hx
        rcases hx with h | h
        · exact (hin x h).imp Or.inl id
        · exact Or.inl (Or.inr h)
      · intro seen X hs hX h0
        refine ⟨fun x hx hm => ?_, trivial⟩
        rcases hs x hm with h | h
        · exact h3 x hx h
        · exact hX x (Or.inr hx) h
    · cases ht
  | @log _ l h1 =>
    rw [FlatStmt.toIr] at ht
    split at ht
    · rename_i es g1
      cases ht
      have hin : ∀ x ∈ es.flatMap (fun e => e.flatMap LinComb.vars), x ∈ D ∨ x = Variable.one := by
        intro x hx
        obtain ⟨e, he, hx⟩ := List.mem_flatMap.1 hx
        obtain ⟨c, hc, hx⟩ := List.mem_flatMap.1 hx
        rw [mapM_option_eq_some] at g1
        obtain ⟨fs, hfs, g2⟩ := forall₂_right g1 he
        rw [mapM_option_eq_some] at g2
        obtain ⟨f, hf, g3⟩ := forall₂_right g2 hc
        exact toLinComb_vars (h1 fs hfs f hf) g3 x hx
      refine ⟨fun seen hs => ⟨fun x hx => hs x (hin x hx), trivial⟩, le_refl _, fun x h => Or.inl h, ?_,
        fun _ _ _ _ _ => ⟨trivial, trivial⟩⟩
      intro x hx
      simp only [Stmt.clean, Stmt.varsL, Stmt.vars, List.append_nil] at hx
      exact hin x hx
    · cases ht
  | @block _ ss _ h1 =>
    rw [FlatStmt.toIr] at ht
    split at ht
    · rename_i ts g1
      cases ht
      rw [Stmt.clean]
      exact Scs.toIr h1 g1
    · cases ht
theorem Scs.toIr {D D' : Set Variable} {ss : List (FlatStmt (ZMod p) Z)} (h : Scs D ss D') {ts : List (Stmt (ZMod p) Z)}
    (ht : FlatStmt.toIrL ss = some ts) : IrSc D (Stmt.cleanL ts) D' := by
  cases h with
  | nil => cases ht; exact .nil
  | cons h1 h2 =>
    rw [FlatStmt.toIrL] at ht
    split at ht
    · rename_i t ts' g1 g2
      cases ht
      rw [Stmt.cleanL]
      exact (Sc.toIr h1 g1).append (Scs.toIr h2 g2)
    · cases ht
end

end Zok
