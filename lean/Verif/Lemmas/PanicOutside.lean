import Verif.Lemmas.PanicScope

/-
Failures outside of definitions survive the extraction of panics.
-/

set_option linter.unusedSectionVars false
set_option linter.unusedVariables false

namespace Zok.Px
variable {p : ℕ} {Z : Type} [Fact p.Prime] {O : Oracle p Z} {hx : Z → Buf p Z → Z}

theorem guarded_outside {α : Type} {gs : Buf p Z} {s : ZStmt (ZMod p) Z} {σ : ZState p} {r : Except Fault α} (hg : GI O σ gs r)
    {f : Fault} (hs : FailsOutside O σ s f) : ∃ e, FailsOutsideL O σ (gs ++ [s]) e := by
  rcases hg.guards.total O σ with h | ⟨e, h⟩
  · exact ⟨f, outside_append_right h (.head hs)⟩
  · exact ⟨e, outside_append_left (guards_outside hg.guards h)⟩

mutual
theorem outStmt (hp : 2 < p) (hO : ∀ z, O.hint (hx z []) = O.hint z) : ∀ (s : ZStmt (ZMod p) Z) {σ : ZState p} {f : Fault}, s.Extractable →
    FailsOutside O σ s f → ∃ e, FailsOutsideL O σ (exStmt hx s) e
  | .ret es, σ, f, h, hr => by
    simp only [exStmt]
    rw [exZs_eq es, List.nil_append]
    exact guarded_outside (giZs hp h) hr
  | .definition x e, σ, f, h, hr => by cases hr
  | .ifElse c t e, σ, f, h, hr => by
    have ht := @outStmts hp hO t
    have he := @outStmts hp hO e
    simp only [exStmt]
    rw [exB_eq c, List.nil_append]
    have hg := giB (O := O) (σ := σ) hp c h.1
    cases hr with
    | alternative h1 h2 h3 =>
      obtain ⟨f, hf⟩ := he h.2.2 h3
      exact guarded_outside hg (.alternative h1 (((exStmts_same hp hO t h.2.1).ok _ _).2 h2) hf)
    | condition h1 => exact guarded_outside hg (.condition h1)
    | consequence h1 h2 =>
      obtain ⟨f, hf⟩ := ht h.2.1 h2
      exact guarded_outside hg (.consequence h1 hf)
  | .assertion e err, σ, f, h, hr => by
    simp only [exStmt]
    rw [exB_eq e, List.nil_append]
    exact guarded_outside (giB hp e h) hr
  | .multiDef xs embed g args, σ, f, h, hr => by cases hr
  | .log es, σ, f, h, hr => by
    simp only [exStmt]
    rw [exZss_eq es, List.nil_append]
    exact guarded_outside (giZs hp h) hr
  | .assembly ss, σ, f, h, hr => by
    have hb : exAsms hx ss [] = (ss.map (mapHint hx), []) := exAsms_poly h
    simp only [exStmt, hb, List.nil_append]
    cases hr with
    | assembly hr => exact ⟨f, .head (.assembly ((execAsms_mapHint hO).2 hr))⟩
theorem outStmts (hp : 2 < p) (hO : ∀ z, O.hint (hx z []) = O.hint z) : ∀ (ss : List (ZStmt (ZMod p) Z)) {σ : ZState p} {f : Fault}, ZStmt.ExtractableL ss →
    FailsOutsideL O σ ss f → ∃ e, FailsOutsideL O σ (exStmts hx ss) e
  | [], _, _, _, hr => by cases hr
  | s :: ss, σ, f, h, hr => by
    have h1 := @outStmt hp hO s
    have h2 := @outStmts hp hO ss
    simp only [exStmts]
    cases hr with
    | head hr =>
      obtain ⟨e, he⟩ := h1 h.1 hr
      exact ⟨e, outside_append_left he⟩
    | tail h3 h4 =>
      obtain ⟨e, he⟩ := h2 h.2 h4
      exact ⟨e, outside_append_right (((exStmt_same hp hO s h.1).ok _ _).2 h3) he⟩
end

end Zok.Px
