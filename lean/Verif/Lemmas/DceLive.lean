import Verif.Lemmas.PanicScope

/-
Lemmas: after the elimination of dead code the variables that are still defined are used.
-/

set_option linter.unusedSectionVars false
set_option linter.unusedSimpArgs false

namespace Zok.Dce
open Px
variable {p : ℕ} {Z : Type} [Fact p.Prime] {O : Oracle p Z} {hd : Z → Used → Z × Used} {hm : Z → List ZId}

mutual
/-- No assignments are added. -/
theorem stmt_assigns : ∀ (s : ZStmt (ZMod p) Z) (u : Used), ∀ x ∈ ZStmt.assignsL (dceStmt hd s u).1, x ∈ s.assigns
  | .ret es, u, x, h => by simp [dceStmt, ZStmt.assignsL, ZStmt.assigns] at h
  | .definition y e, u, x, h => by
    rw [dce_definition] at h
    split at h
    · simpa [ZStmt.assignsL] using h
    · simp [ZStmt.assignsL] at h
  | .ifElse c t e, u, x, h => by
    simp only [dceStmt, ZStmt.assignsL, ZStmt.assigns, List.append_nil, List.mem_append] at h ⊢
    exact h.imp (stmts_assigns t _ x) (stmts_assigns e _ x)
  | .assertion e _, u, x, h => by simp [dceStmt, ZStmt.assignsL, ZStmt.assigns] at h
  | .multiDef xs embed g args, u, x, h => by
    rw [dce_multiDef] at h
    split at h
    · simpa [ZStmt.assignsL] using h
    · simp [ZStmt.assignsL] at h
  | .log es, u, x, h => by simp [dceStmt, ZStmt.assignsL, ZStmt.assigns] at h
  | .assembly ss, u, x, h => by
    simp only [dceStmt, ZStmt.assignsL, ZStmt.assigns, List.append_nil] at h ⊢
    have : ∀ (ss : List (ZAsm (ZMod p) Z)) (u : Used), (dceAsms hd ss u).1.flatMap ZAsm.assigns = ss.flatMap ZAsm.assigns := by
      intro ss
      induction ss with
      | nil => intro u; rfl
      | cons s ss ih =>
        intro u
        simp only [dceAsms, List.flatMap_cons, ih]
        cases s <;> rfl
    rwa [this] at h
/-- No assignments are added. -/
theorem stmts_assigns : ∀ (ss : List (ZStmt (ZMod p) Z)) (u : Used), ∀ x ∈ ZStmt.assignsL (dceStmts hd ss u).1, x ∈ ZStmt.assignsL ss
  | [], u, x, h => h
  | s :: ss, u, x, h => by
    simp only [dceStmts, ZStmt.assignsL] at h ⊢
    rw [assigns_append, List.mem_append] at h
    exact List.mem_append.2 (h.imp (stmt_assigns s _ x) (stmts_assigns ss _ x))
end

section
variable (hl : ∀ z u x, (hd z u).2 x = true → u x = true ∨ x ∈ hm (hd z u).1)
include hl

theorem asm_live (s : ZAsm (ZMod p) Z) (u : Used) (x : ZId) (h : (dceAsm hd s u).2 x = true) :
    u x = true ∨ x ∈ (dceAsm hd s u).1.mentions hm := by
  cases s with
  | assignment xs f args =>
    rcases hl _ _ _ h with h | h
    · rcases names_iff.1 h with h | h
      · exact Or.inr (by simp [dceAsm, ZAsm.mentions, h])
      · exact Or.inl h
    · exact Or.inr (by simp [dceAsm, ZAsm.mentions, h])
  | constraint l r info =>
    rcases names_iff.1 h with h | h
    · exact Or.inr (by simp [dceAsm, ZAsm.mentions, h])
    · rcases names_iff.1 h with h | h
      · exact Or.inr (by simp [dceAsm, ZAsm.mentions, h])
      · exact Or.inl h

theorem asms_live (ss : List (ZAsm (ZMod p) Z)) (u : Used) (x : ZId) (h : (dceAsms hd ss u).2 x = true) :
    u x = true ∨ x ∈ (dceAsms hd ss u).1.flatMap (ZAsm.mentions hm) := by
  induction ss generalizing u with
  | nil => exact Or.inl h
  | cons s ss ih =>
    rcases ih _ h with h | h
    · rcases asm_live hl s u x h with h | h
      · exact Or.inl h
      · exact Or.inr (by simp only [dceAsms, List.flatMap_cons, List.mem_append]; exact Or.inl h)
    · exact Or.inr (by simp only [dceAsms, List.flatMap_cons, List.mem_append]; exact Or.inr h)

mutual
theorem stmt_live : ∀ (s : ZStmt (ZMod p) Z) (u : Used) (x : ZId), (dceStmt hd s u).2 x = true →
    u x = true ∨ x ∈ ZStmt.mentionsL hm (dceStmt hd s u).1
  | .ret es, u, x, h => by
    rcases names_iff.1 h with h | h
    · exact Or.inr (by simp [dceStmt, ZStmt.mentionsL, ZStmt.mentions, h])
    · exact Or.inl h
  | .definition y e, u, x, h => by
    rw [dce_definition] at h ⊢
    by_cases hu : u y = true
    · rw [if_pos hu] at h ⊢
      rw [names_iff, names_iff] at h
      simp only [List.mem_singleton, without, Bool.and_eq_true] at h
      simp only [ZStmt.mentionsL, ZStmt.mentions, List.append_nil, List.mem_cons]
      tauto
    · rw [if_neg hu, without_eq (by simpa using hu)] at h
      exact Or.inl h
  | .ifElse c t e, u, x, h => by
    simp only [dceStmt] at h ⊢
    simp only [ZStmt.mentionsL, ZStmt.mentions, List.append_nil, List.mem_append]
    rcases stmts_live e _ x h with h | h
    · rcases stmts_live t _ x h with h | h
      · rcases names_iff.1 h with h | h
        · tauto
        · exact Or.inl h
      · tauto
    · tauto
  | .assertion e _, u, x, h => by
    rcases names_iff.1 h with h | h
    · exact Or.inr (by simp [dceStmt, ZStmt.mentionsL, ZStmt.mentions, h])
    · exact Or.inl h
  | .multiDef xs embed g args, u, x, h => by
    rw [dce_multiDef] at h ⊢
    by_cases hb : (u.removeAny xs).1 = true
    · rw [if_pos hb] at h ⊢
      rw [names_iff, names_iff] at h
      simp only [ZStmt.mentionsL, ZStmt.mentions, List.append_nil, List.mem_append]
      rcases h with h | h | h
      · tauto
      · tauto
      · exact Or.inl (removeAny_le h)
    · rw [if_neg hb] at h
      exact Or.inl (removeAny_le h)
  | .log es, u, x, h => by
    rcases names_iff.1 h with h | h
    · exact Or.inr (by simp only [dceStmt, ZStmt.mentionsL, ZStmt.mentions, List.append_nil]; exact h)
    · exact Or.inl h
  | .assembly ss, u, x, h => by
    simp only [dceStmt, ZStmt.mentionsL, ZStmt.mentions, List.append_nil] at h ⊢
    exact asms_live hl ss u x h
theorem stmts_live : ∀ (ss : List (ZStmt (ZMod p) Z)) (u : Used) (x : ZId), (dceStmts hd ss u).2 x = true →
    u x = true ∨ x ∈ ZStmt.mentionsL hm (dceStmts hd ss u).1
  | [], u, x, h => Or.inl h
  | s :: ss, u, x, h => by
    simp only [dceStmts] at h ⊢
    rw [mentions_append, List.mem_append]
    rcases stmt_live s _ x h with h | h
    · rcases stmts_live ss u x h with h | h
      · exact Or.inl h
      · tauto
    · tauto
end

/-- What is left of a single statement is at most one statement of the same kind; a definition is kept only when it is used. -/
theorem live_split : ∀ (ss : List (ZStmt (ZMod p) Z)) {pre post : List (ZStmt (ZMod p) Z)} {s' : ZStmt (ZMod p) Z},
    (dceStmts hd ss fun _ => false).1 = pre ++ s' :: post →
    ZStmt.AssignedFirstL hm ss →
    (∀ x e, s' = .definition x e → x ∈ ZStmt.mentionsL hm post ∧ x ∉ ZStmt.assignsL post) ∧
    (∀ xs em g as, s' = .multiDef xs em g as → ∃ x ∈ xs, x ∈ ZStmt.mentionsL hm post ∧ x ∉ ZStmt.assignsL post)
  | [], pre, post, s', h, _ => by simp [dceStmts] at h
  | s :: ss, pre, post, s', h, hF => by
    simp only [dceStmts] at h
    -- the statement is either in what is left of `s`, or later
    have hlen : (dceStmt hd s (dceStmts hd ss fun _ => false).2).1 = [] ∨ ∃ t, (dceStmt hd s (dceStmts hd ss fun _ => false).2).1 = [t] := by
      cases s with
      | definition x e => rw [dce_definition]; split <;> simp
      | multiDef xs em g as => rw [dce_multiDef]; split <;> simp
      | _ => exact Or.inr ⟨_, rfl⟩
    rcases hlen with h0 | ⟨t, h0⟩
    · rw [h0, List.nil_append] at h
      exact live_split ss h hF.2.1
    · rw [h0] at h
      cases pre with
      | cons a pre =>
        simp only [List.cons_append, List.nil_append, List.cons.injEq] at h
        exact live_split ss h.2 hF.2.1
      | nil =>
        simp only [List.cons_append, List.nil_append, List.cons.injEq] at h
        obtain ⟨rfl, rfl⟩ := h
        have hx : ∀ x, (dceStmts hd ss fun _ => false).2 x = true → x ∈ ZStmt.mentionsL hm (dceStmts hd ss fun _ => false).1 := by
          intro x h
          rcases stmts_live hl ss _ x h with h | h
          · cases h
          · exact h
        refine ⟨?_, ?_⟩
        · rintro x e rfl
          cases s with
          | definition y e' =>
            rw [dce_definition] at h0
            split at h0
            · rename_i hu
              simp only [List.cons.injEq, ZStmt.definition.injEq, and_true] at h0
              rw [← h0.1]
              exact ⟨hx y hu, fun h' => hF.2.2 y (stmts_assigns ss _ y h') (by simp [ZStmt.mentions])⟩
            · cases h0
          | multiDef xs em g as => rw [dce_multiDef] at h0; split at h0 <;> simp at h0
          | _ => simp [dceStmt] at h0
        · rintro xs em g as rfl
          cases s with
          | multiDef ys em' g' as' =>
            rw [dce_multiDef] at h0
            split at h0
            · rename_i hu
              simp only [List.cons.injEq, ZStmt.multiDef.injEq, and_true] at h0
              rw [← h0.1]
              have : ∃ y ∈ ys, (dceStmts hd ss fun _ => false).2 y = true := by
                by_contra hn
                push Not at hn
                have : ∀ (ys : List ZId) (u : Used), (∀ y ∈ ys, u y ≠ true) → (u.removeAny ys).1 = false := by
                  intro ys
                  induction ys with
                  | nil => intros; rfl
                  | cons y ys ih =>
                    intro u hu
                    rw [removeAny_cons, if_neg (hu y (by simp)), without_eq (by simpa using hu y (by simp))]
                    exact ih u (fun z hz => hu z (by simp [hz]))
                rw [this ys _ hn] at hu
                cases hu
              obtain ⟨y, hy, hu⟩ := this
              exact ⟨y, hy, hx y hu, fun h' => hF.2.2 y (stmts_assigns ss _ y h') (by simp [ZStmt.mentions, hy])⟩
            · cases h0
          | definition y e' => rw [dce_definition] at h0; split at h0 <;> simp at h0
          | _ => simp [dceStmt] at h0
end

end Zok.Dce
