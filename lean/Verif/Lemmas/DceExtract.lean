import Verif.Lemmas.DceLive
import Verif.Lemmas.PanicScope

/-
Elimination of dead code after the extraction of panics: nothing divides by zero.
-/

set_option linter.unusedSectionVars false
set_option linter.unusedSimpArgs false
set_option linter.unusedVariables false

namespace Zok.Dce
open Px
variable {p : ℕ} {Z : Type} [Fact p.Prime] {O : Oracle p Z} {hd : Z → Used → Z × Used} {hx : Z → List (ZStmt (ZMod p) Z) → Z}

theorem dceStmts_append (a b : List (ZStmt (ZMod p) Z)) (u : Used) : dceStmts hd (a ++ b) u =
    ((dceStmts hd a (dceStmts hd b u).2).1 ++ (dceStmts hd b u).1, (dceStmts hd a (dceStmts hd b u).2).2) := by
  induction a with
  | nil => simp [dceStmts]
  | cons s ss ih => simp only [List.cons_append, dceStmts, ih, List.append_assoc]

theorem dceStmts_single (s : ZStmt (ZMod p) Z) (u : Used) : (dceStmts hd [s] u).1 = (dceStmt hd s u).1 := by
  simp [dceStmts]

theorem dce_guards {gs : Buf p Z} (h : ZGuards gs) (u : Used) : (dceStmts hd gs u).1 = gs := by
  have hl : ∀ {gs : Buf p Z}, (∀ s ∈ gs, ∀ u, (dceStmt hd s u).1 = [s]) → ∀ u, (dceStmts hd gs u).1 = gs := by
    intro gs
    induction gs with
    | nil => intro _ u; rfl
    | cons s ss ih =>
      intro h u
      simp only [dceStmts]
      rw [h s List.mem_cons_self, ih (fun s hs => h s (List.mem_cons_of_mem _ hs))]
      rfl
  have hs : ∀ {s : ZStmt (ZMod p) Z}, ZGuard s → ∀ u, (dceStmt hd s u).1 = [s] := by
    intro s h
    induction h with
    | assertion => intro u; rfl
    | ifElse _ _ h1 h2 =>
      intro u
      simp only [dceStmt]
      rw [hl h1, hl h2]
  exact hl (fun s hs' => hs (h s hs')) u

theorem dce_guarded {gs : Buf p Z} (h : ZGuards gs) (s : ZStmt (ZMod p) Z) (u : Used) :
    (dceStmts hd (gs ++ [s]) u).1 = gs ++ (dceStmt hd s u).1 := by
  rw [dceStmts_append]
  simp only [dceStmts_single, dce_guards h]

theorem nd_guarded {α : Type} {gs : Buf p Z} {l : List (ZStmt (ZMod p) Z)} {r : Except Fault α} {σ : ZState p} (hg : GI O σ gs r)
    (hd : Pass O σ gs → ¬ ExecL O σ l (.error .divZero)) : ¬ ExecL O σ (gs ++ l) (.error .divZero) := by
  intro h
  rcases hg.guards.execL_append.1 h with ⟨h1, h⟩ | ⟨e', h1, h⟩
  · exact hd h1 h
  · cases h1; exact hg.noDiv h

theorem nd_append {a b : List (ZStmt (ZMod p) Z)} (ha : ∀ σ, ¬ ExecL O σ a (.error .divZero)) (hb : ∀ σ, ¬ ExecL O σ b (.error .divZero)) :
    ∀ σ, ¬ ExecL O σ (a ++ b) (.error .divZero) := by
  intro σ h
  rcases Px.execL_append.1 h with ⟨σ₁, h1, h2⟩ | ⟨e', h1, h2⟩
  · exact hb _ h2
  · cases h1; exact ha _ h2

theorem dceAsms_poly {ss : List (ZAsm (ZMod p) Z)} (h : ∀ s ∈ ss, ZAsm.Poly s) : ∀ u, ∀ s ∈ (dceAsms hd ss u).1, ZAsm.Poly s := by
  induction ss with
  | nil => intro u s hs; cases hs
  | cons s ss ih =>
    intro u t ht
    simp only [dceAsms, List.mem_cons] at ht
    rcases ht with rfl | ht
    · have := h s List.mem_cons_self
      cases s with
      | assignment xs f args => exact trivial
      | constraint l r i => exact this
    · exact ih (fun s hs => h s (List.mem_cons_of_mem _ hs)) _ t ht

mutual
theorem ndStmt (hp : 2 < p) : ∀ (s : ZStmt (ZMod p) Z), s.Extractable → ∀ (u : Used) (σ : ZState p),
    ¬ ExecL O σ (dceStmts hd (exStmt hx s) u).1 (.error .divZero)
  | .ret es, h, u, σ => by
    simp only [exStmt]
    rw [exZs_eq es, List.nil_append]
    change ¬ ExecL O σ (dceStmts hd (gZs Z es ++ [.ret es]) u).1 _
    rw [dce_guarded (zgZs es)]
    refine nd_guarded (giZs hp h) fun h1 h2 => ?_
    cases execL_single.1 h2 with | retFault h2 => exact (giZs hp h).safe h1 h2
  | .definition x e, h, u, σ => by
    simp only [exStmt]
    rw [exZ_eq e, List.nil_append]
    change ¬ ExecL O σ (dceStmts hd (gZ Z e ++ [.definition x e]) u).1 _
    rw [dce_guarded (zgZ e)]
    refine nd_guarded (giZ hp h) fun h1 h2 => ?_
    rw [dce_definition] at h2
    split at h2
    · cases execL_single.1 h2 with | definitionFault h2 => exact (giZ hp h).safe h1 h2
    · cases h2
  | .ifElse c t e, h, u, σ => by
    have ht := ndStmts hp t h.2.1
    have he := ndStmts hp e h.2.2
    simp only [exStmt]
    rw [exB_eq c, List.nil_append]
    change ¬ ExecL O σ (dceStmts hd (gB Z c ++ [.ifElse c (exStmts hx t) (exStmts hx e)]) u).1 _
    rw [dce_guarded (zgB c)]
    refine nd_guarded (giB hp c h.1) fun h1 h2 => ?_
    simp only [dceStmt] at h2
    cases execL_single.1 h2 with
    | ifElse _ _ h3 => exact he _ _ h3
    | ifFault h2 => exact (giB hp c h.1).safe h1 h2
    | thenFault _ h3 => exact ht _ _ h3
  | .assertion e err, h, u, σ => by
    simp only [exStmt]
    rw [exB_eq e, List.nil_append]
    change ¬ ExecL O σ (dceStmts hd (gB Z e ++ [.assertion e err]) u).1 _
    rw [dce_guarded (zgB e)]
    refine nd_guarded (giB hp e h) fun h1 h2 => ?_
    cases execL_single.1 h2 with | assertFault hc h2 => exact Conjunct.safe hp hc h h1 h2
  | .multiDef xs embed g args, h, u, σ => by
    simp only [exStmt]
    rw [exZs_eq args, List.nil_append]
    change ¬ ExecL O σ (dceStmts hd (gZs Z args ++ [.multiDef xs embed g args]) u).1 _
    rw [dce_guarded (zgZs args)]
    refine nd_guarded (giZs hp h) fun h1 h2 => ?_
    rw [dce_multiDef] at h2
    split at h2
    · cases execL_single.1 h2 with
      | embedFault h3 h4 => cases h4
      | argsFault h2 => exact (giZs hp h).safe h1 h2
    · cases h2
  | .log es, h, u, σ => by
    simp only [exStmt]
    rw [exZss_eq es, List.nil_append]
    change ¬ ExecL O σ (dceStmts hd (gZs Z es.flatten ++ [.log es]) u).1 _
    rw [dce_guarded (zgZs es.flatten)]
    refine nd_guarded (giZs hp h) fun h1 h2 => ?_
    cases execL_single.1 h2 with | logFault h2 => exact (giZs hp h).safe h1 h2
  | .assembly ss, h, u, σ => by
    have hb : exAsms hx ss [] = (ss.map (mapHint hx), []) := exAsms_poly h
    simp only [exStmt, hb, List.nil_append]
    rw [dceStmts_single]
    intro h1
    simp only [dceStmt] at h1
    cases execL_single.1 h1 with
    | assembly h1 =>
      refine execAsms_noDiv (dceAsms_poly (fun s hs => ?_) _) h1
      obtain ⟨s', hs', rfl⟩ := List.mem_map.1 hs
      have := h s' hs'
      cases s' with
      | assignment xs f args => exact trivial
      | constraint l r i => exact this
theorem ndStmts (hp : 2 < p) : ∀ (ss : List (ZStmt (ZMod p) Z)), ZStmt.ExtractableL ss → ∀ (u : Used) (σ : ZState p),
    ¬ ExecL O σ (dceStmts hd (exStmts hx ss) u).1 (.error .divZero)
  | [], _, u, σ => by intro h; cases h
  | s :: ss, h, u, σ => by
    have h1 := ndStmt hp s h.1
    have h2 := ndStmts hp ss h.2
    simp only [exStmts]
    rw [dceStmts_append]
    exact nd_append (h1 _) (h2 _) σ
end

theorem dce_noDiv (hp : 2 < p) {f : ZFun (ZMod p) Z} (hf : ZStmt.ExtractableL f.body) (ins : List (ZMod p)) :
    ¬ Faults O (eliminateDeadCode hd (extractPanics hx f)) ins .divZero := by
  rintro ⟨vs, h1, h2⟩
  exact ndStmts hp f.body hf _ _ h2

end Zok.Dce
