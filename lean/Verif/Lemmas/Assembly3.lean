import Verif.Lemmas.Assembly2

/-
Execution of programs with transformed assembly blocks.
-/

set_option linter.unusedSectionVars false

namespace Zok
open Prop' Dce
namespace Atr
variable {p : ℕ} {Z : Type} [Fact p.Prime] {O : Oracle p Z}

/-- Two outcomes: the same state, or both are faults. -/
inductive SameRes : Except Fault (ZState p) → Except Fault (ZState p) → Prop
  | ok {σ} : SameRes (.ok σ) (.ok σ)
  | error {e e'} : SameRes (.error e) (.error e')

/-- `P` and `Q` have the same outcomes, unless `P` gets stuck. -/
def Same (P Q : Except Fault (ZState p) → Prop) : Prop :=
  (∀ r, P r → r = .error .stuck ∨ ∃ r', Q r' ∧ SameRes r r') ∧ ∀ r, Q r → (P (.error .stuck)) ∨ ∃ r', P r' ∧ SameRes r' r

theorem Same.refl (P : Except Fault (ZState p) → Prop) : Same P P :=
  ⟨fun r h => Or.inr ⟨r, h, by cases r <;> constructor⟩, fun r h => Or.inr ⟨r, h, by cases r <;> constructor⟩⟩

theorem constraint_inv {σ : ZState p} {l r : FExpr (ZMod p)} {info : String} {res : Except Fault (ZState p)}
    (h : ExecAsm O σ (.constraint l r info) res) :
    (∃ v w, evalF σ.env l = .ok v ∧ evalF σ.env r = .ok w ∧ ((v = w ∧ res = .ok σ) ∨ (v ≠ w ∧ res = .error .assertionFailed))) ∨
    (∃ f, evalF σ.env l = .error f ∧ res = .error f) ∨ ∃ v f, evalF σ.env l = .ok v ∧ evalF σ.env r = .error f ∧ res = .error f := by
  cases h with
  | ok h1 h2 => exact Or.inl ⟨_, _, h1, h2, Or.inl ⟨rfl, rfl⟩⟩
  | failed h1 h2 h3 => exact Or.inl ⟨_, _, h1, h2, Or.inr ⟨h3, rfl⟩⟩
  | faultL h1 => exact Or.inr (Or.inl ⟨_, h1, rfl⟩)
  | faultR h1 h2 => exact Or.inr (Or.inr ⟨_, _, h1, h2, rfl⟩)

theorem swap_same {σ : ZState p} {l r : FExpr (ZMod p)} {info : String} {res : Except Fault (ZState p)}
    (h : ExecAsm O σ (.constraint l r info) res) : ∃ res', ExecAsm O σ (.constraint r l info) res' ∧ SameRes res res' := by
  rcases constraint_inv h with ⟨v, w, h1, h2, ⟨rfl, rfl⟩ | ⟨h3, rfl⟩⟩ | ⟨f, h1, rfl⟩ | ⟨v, f, h1, h2, rfl⟩
  · exact ⟨_, .ok h2 h1, .ok⟩
  · exact ⟨_, .failed h2 h1 (Ne.symm h3), .error⟩
  · cases h4 : evalF σ.env r with
    | ok w => exact ⟨_, .faultR h4 h1, .error⟩
    | error e => exact ⟨_, .faultL h4, .error⟩
  · exact ⟨_, .faultL h2, .error⟩

theorem SameRes.symm {a b : Except Fault (ZState p)} (h : SameRes a b) : SameRes b a := by cases h <;> constructor

theorem asm_same {s s' : ZAsm (ZMod p) Z} (hd : ∀ l r info, s = .constraint l r info → AtMostQuadratic l r) (h : asm s = .ok s')
    (σ : ZState p) : Same (ExecAsm O σ s) (ExecAsm O σ s') := by
  cases s with
  | assignment xs f args => simp only [asm] at h; cases h; exact Same.refl _
  | constraint l r info =>
    simp only [asm] at h
    obtain ⟨⟨l', r'⟩, h1, h⟩ := exc_bind_ok h
    cases h
    rcases constraint_cases (hd l r info rfl) h1 with ⟨rfl, rfl⟩ | ⟨rfl, rfl⟩ | ⟨h2, h3, h4⟩
    · exact Same.refl _
    · exact ⟨fun _ h => Or.inr (swap_same h), fun _ h => Or.inr (by obtain ⟨r, h1, h2⟩ := swap_same h; exact ⟨r, h1, h2.symm⟩)⟩
    · have e1 := poly_eval (env := σ.env) h2
      have e2 := poly_eval (env := σ.env) h3
      by_cases hl : Bound σ.env (idsF l)
      · by_cases hr : Bound σ.env (idsF r)
        · obtain ⟨a, b, h5, h6, h7⟩ := h4 σ.env hl hr
          have h8 : a = b ↔ pval (valOf σ.env) l = pval (valOf σ.env) r := by
            rw [← sub_eq_zero, ← sub_eq_zero (a := pval (valOf σ.env) l)]
            rcases h7 with h7 | h7
            · rw [h7]
            · rw [h7, sub_eq_zero, sub_eq_zero]; exact eq_comm
          refine ⟨fun res h => Or.inr ?_, fun res h => Or.inr ?_⟩
          · rcases constraint_inv h with ⟨v, w, h9, h10, h11⟩ | ⟨f, h9, _⟩ | ⟨v, f, _, h9, _⟩
            · rw [e1.1 hl] at h9; rw [e2.1 hr] at h10; cases h9; cases h10
              rcases h11 with ⟨h11, rfl⟩ | ⟨h11, rfl⟩
              · exact ⟨_, .ok h5 (h8.mpr h11 ▸ h6), .ok⟩
              · exact ⟨_, .failed h5 h6 (fun h => h11 (h8.mp h)), .error⟩
            · rw [e1.1 hl] at h9; cases h9
            · rw [e2.1 hr] at h9; cases h9
          · rcases constraint_inv h with ⟨v, w, h9, h10, h11⟩ | ⟨f, h9, _⟩ | ⟨v, f, _, h9, _⟩
            · rw [h5] at h9; rw [h6] at h10; cases h9; cases h10
              rcases h11 with ⟨h11, rfl⟩ | ⟨h11, rfl⟩
              · exact ⟨_, .ok (e1.1 hl) (h8.mp h11 ▸ e2.1 hr), .ok⟩
              · exact ⟨_, .failed (e1.1 hl) (e2.1 hr) (fun h => h11 (h8.mpr h)), .error⟩
            · rw [h5] at h9; cases h9
            · rw [h6] at h9; cases h9
        · refine ⟨fun res h => Or.inl ?_, fun _ _ => Or.inl (.faultR (e1.1 hl) (e2.2 hr))⟩
          rcases constraint_inv h with ⟨v, w, h9, h10, h11⟩ | ⟨f, h9, _⟩ | ⟨v, f, _, h9, h10⟩
          · rw [e2.2 hr] at h10; cases h10
          · rw [e1.1 hl] at h9; cases h9
          · rw [e2.2 hr] at h9; cases h9; exact h10
      · refine ⟨fun res h => Or.inl ?_, fun _ _ => Or.inl (.faultL (e1.2 hl))⟩
        rcases constraint_inv h with ⟨v, w, h9, h10, h11⟩ | ⟨f, h9, h10⟩ | ⟨v, f, h9, _, _⟩
        · rw [e1.2 hl] at h9; cases h9
        · rw [e1.2 hl] at h9; cases h9; exact h10
        · rw [e1.2 hl] at h9; cases h9

/-- Sequences of two. -/
theorem Same.seq {P Q : Except Fault (ZState p) → Prop} {P' Q' : ZState p → Except Fault (ZState p) → Prop} (h : Same P Q)
    (h' : ∀ σ, Same (P' σ) (Q' σ)) :
    Same (fun r => (∃ e, r = .error e ∧ P (.error e)) ∨ ∃ σ, P (.ok σ) ∧ P' σ r)
      (fun r => (∃ e, r = .error e ∧ Q (.error e)) ∨ ∃ σ, Q (.ok σ) ∧ Q' σ r) := by
  constructor
  · rintro r (⟨e, rfl, h1⟩ | ⟨σ, h1, h2⟩)
    · rcases h.1 _ h1 with h3 | ⟨r', h3, h4⟩
      · exact Or.inl h3
      · cases h4
        exact Or.inr ⟨_, Or.inl ⟨_, rfl, h3⟩, .error⟩
    · rcases h.1 _ h1 with h3 | ⟨r', h3, h4⟩
      · cases h3
      · cases h4
        rcases (h' σ).1 _ h2 with h5 | ⟨r'', h5, h6⟩
        · exact Or.inl h5
        · exact Or.inr ⟨r'', Or.inr ⟨σ, h3, h5⟩, h6⟩
  · rintro r (⟨e, rfl, h1⟩ | ⟨σ, h1, h2⟩)
    · rcases h.2 _ h1 with h3 | ⟨r', h3, h4⟩
      · exact Or.inl (Or.inl ⟨_, rfl, h3⟩)
      · cases h4
        exact Or.inr ⟨_, Or.inl ⟨_, rfl, h3⟩, .error⟩
    · rcases h.2 _ h1 with h3 | ⟨r', h3, h4⟩
      · exact Or.inl (Or.inl ⟨_, rfl, h3⟩)
      · cases h4
        rcases (h' σ).2 _ h2 with h5 | ⟨r'', h5, h6⟩
        · exact Or.inl (Or.inr ⟨σ, h3, h5⟩)
        · exact Or.inr ⟨r'', Or.inr ⟨σ, h3, h5⟩, h6⟩

theorem Same.congr {P P' Q Q' : Except Fault (ZState p) → Prop} (h : Same P Q) (hP : ∀ r, P r ↔ P' r) (hQ : ∀ r, Q r ↔ Q' r) : Same P' Q' := by
  have h1 : P = P' := funext fun r => propext (hP r)
  have h2 : Q = Q' := funext fun r => propext (hQ r)
  rw [← h1, ← h2]; exact h

theorem execAsms_cons {σ : ZState p} {s : ZAsm (ZMod p) Z} {ss : List (ZAsm (ZMod p) Z)} (r) :
    ((∃ e, r = .error e ∧ ExecAsm O σ s (.error e)) ∨ ∃ σ', ExecAsm O σ s (.ok σ') ∧ ExecAsms O σ' ss r) ↔ ExecAsms O σ (s :: ss) r := by
  constructor
  · rintro (⟨e, rfl, h⟩ | ⟨σ', h, h'⟩)
    · exact .fault h
    · exact .cons h h'
  · intro h
    cases h with
    | fault h => exact Or.inl ⟨_, rfl, h⟩
    | cons h h' => exact Or.inr ⟨_, h, h'⟩

theorem execL_cons {σ : ZState p} {s : ZStmt (ZMod p) Z} {ss : List (ZStmt (ZMod p) Z)} (r) :
    ((∃ e, r = .error e ∧ Exec O σ s (.error e)) ∨ ∃ σ', Exec O σ s (.ok σ') ∧ ExecL O σ' ss r) ↔ ExecL O σ (s :: ss) r := by
  constructor
  · rintro (⟨e, rfl, h⟩ | ⟨σ', h, h'⟩)
    · exact .fault h
    · exact .cons h h'
  · intro h
    cases h with
    | fault h => exact Or.inl ⟨_, rfl, h⟩
    | cons h h' => exact Or.inr ⟨_, h, h'⟩

theorem exec_if {σ : ZState p} {c : BExpr (ZMod p)} {b : Bool} {t e : List (ZStmt (ZMod p) Z)} (hb : evalB σ.env c = .ok b) (r) :
    ((∃ f, r = .error f ∧ ExecL O σ t (.error f)) ∨ ∃ σ', ExecL O σ t (.ok σ') ∧ ExecL O σ' e r) ↔ Exec O σ (.ifElse c t e) r := by
  constructor
  · rintro (⟨f, rfl, h⟩ | ⟨σ', h, h'⟩)
    · exact .thenFault hb h
    · exact .ifElse hb h h'
  · intro h
    cases h with
    | ifElse _ h h' => exact Or.inr ⟨_, h, h'⟩
    | ifFault h => rw [hb] at h; cases h
    | thenFault _ h => exact Or.inl ⟨_, rfl, h⟩

theorem asms_same : ∀ (ss : List (ZAsm (ZMod p) Z)) {ss' : List (ZAsm (ZMod p) Z)}
    (_ : ∀ l r info, ZAsm.constraint l r info ∈ ss → AtMostQuadratic l r) (_ : asms ss = .ok ss') (σ : ZState p),
    Same (ExecAsms O σ ss) (ExecAsms O σ ss')
  | [], _, _, h, σ => by simp only [asms] at h; cases h; exact Same.refl _
  | s :: ss, _, hd, h, σ => by
    simp only [asms] at h
    obtain ⟨s', h1, h⟩ := exc_bind_ok h
    obtain ⟨ss', h2, h⟩ := exc_bind_ok h
    cases h
    exact (Same.seq (asm_same (O := O) (fun l r info h => hd l r info (by simp [h])) h1 σ)
      (asms_same ss (fun l r info h => hd l r info (by simp [h])) h2)).congr execAsms_cons execAsms_cons

mutual
theorem stmt_same : ∀ (s : ZStmt (ZMod p) Z) {s' : ZStmt (ZMod p) Z} (_ : s.AtMostQuadratic) (_ : stmt s = .ok s') (σ : ZState p),
    Same (Exec O σ s) (Exec O σ s')
  | .ifElse c t e, _, hd, h, σ => by
    have ih1 := fun {t'} (h1 : stmts t = .ok t') => stmts_same t hd.1 h1
    have ih2 := fun {e'} (h1 : stmts e = .ok e') => stmts_same e hd.2 h1
    simp only [stmt] at h
    obtain ⟨t', h1, h⟩ := exc_bind_ok h
    obtain ⟨e', h2, h⟩ := exc_bind_ok h
    cases h
    cases hb : evalB σ.env c with
    | ok b => exact (Same.seq (ih1 h1 σ) (ih2 h2)).congr (exec_if hb) (exec_if hb)
    | error f =>
      have H : ∀ (t e : List (ZStmt (ZMod p) Z)) r, Exec O σ (.ifElse c t e) r ↔ r = .error f := by
        intro t e r
        constructor
        · intro h
          cases h with
          | ifElse h => rw [hb] at h; cases h
          | ifFault h => rw [hb] at h; cases h; rfl
          | thenFault h => rw [hb] at h; cases h
        · rintro rfl; exact .ifFault hb
      exact (Same.refl (fun r => r = .error f)).congr (fun r => (H _ _ r).symm) (fun r => (H _ _ r).symm)
  | .assembly ss, _, hd, h, σ => by
    simp only [stmt] at h
    obtain ⟨ss', h1, h⟩ := exc_bind_ok h
    cases h
    have H : ∀ (ss : List (ZAsm (ZMod p) Z)) r, ExecAsms O σ ss r ↔ Exec O σ (.assembly ss) r :=
      fun ss r => ⟨.assembly, fun h => by cases h; assumption⟩
    exact (asms_same ss hd h1 σ).congr (H _) (H _)
  | .ret _, _, _, h, _ | .definition _ _, _, _, h, _ | .assertion _ _, _, _, h, _ | .multiDef _ _ _ _, _, _, h, _ | .log _, _, _, h, _ => by
    simp only [stmt] at h; cases h; exact Same.refl _
theorem stmts_same : ∀ (ss : List (ZStmt (ZMod p) Z)) {ss' : List (ZStmt (ZMod p) Z)} (_ : ZStmt.AtMostQuadraticL ss)
    (_ : stmts ss = .ok ss') (σ : ZState p), Same (ExecL O σ ss) (ExecL O σ ss')
  | [], _, _, h, σ => by simp only [stmts] at h; cases h; exact Same.refl _
  | s :: ss, _, hd, h, σ => by
    have ih1 := fun {s'} (h1 : stmt s = .ok s') => stmt_same s hd.1 h1 σ
    have ih2 := fun {ss'} (h1 : stmts ss = .ok ss') => stmts_same ss hd.2 h1
    simp only [stmts] at h
    obtain ⟨s', h1, h⟩ := exc_bind_ok h
    obtain ⟨ss', h2, h⟩ := exc_bind_ok h
    cases h
    exact (Same.seq (ih1 h1) (ih2 h2)).congr execL_cons execL_cons
end

end Atr
end Zok
