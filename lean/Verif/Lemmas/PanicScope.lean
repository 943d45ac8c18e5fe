import Verif.Lemmas.PanicPres
import Verif.Lemmas.DceStmt

/-
Lemmas on the extraction of panics: the guards of an expression only mention its variables.
-/

set_option linter.unusedSectionVars false
set_option linter.unusedSimpArgs false
set_option linter.unusedVariables false

namespace Zok.Px
open Dce
variable {p : ℕ} {Z : Type} [Fact p.Prime] {hm : Z → List ZId}

/-- The statements only mention the given variables. -/
abbrev Sub (hm : Z → List ZId) (gs : Buf p Z) (S : List ZId) : Prop := ∀ x ∈ ZStmt.mentionsL hm gs, x ∈ S

theorem mentions_append {a b : List (ZStmt (ZMod p) Z)} : ZStmt.mentionsL hm (a ++ b) = ZStmt.mentionsL hm a ++ ZStmt.mentionsL hm b := by
  induction a with
  | nil => rfl
  | cons s a ih => simp [ZStmt.mentionsL, ih]

theorem assigns_append {a b : List (ZStmt (ZMod p) Z)} : ZStmt.assignsL (a ++ b) = ZStmt.assignsL a ++ ZStmt.assignsL b := by
  induction a with
  | nil => rfl
  | cons s a ih => simp [ZStmt.assignsL, ih]

theorem gm_nil {S : List ZId} : Sub hm ([] : Buf p Z) S := fun _ h => by simp [ZStmt.mentionsL] at h

theorem gm_app {a b : Buf p Z} {A B : List ZId} (ha : Sub hm a A) (hb : Sub hm b B) : Sub hm (a ++ b) (A ++ B) := by
  intro x hx
  rw [mentions_append, List.mem_append] at hx
  exact List.mem_append.2 (hx.imp (ha x) (hb x))

theorem gm_mono {a : Buf p Z} {A B : List ZId} (ha : Sub hm a A) (h : ∀ x, x ∈ A → x ∈ B) : Sub hm a B := fun x hx => h x (ha x hx)

theorem gm_single {e : BExpr (ZMod p)} {err : RuntimeError} : Sub hm ([.assertion e err] : Buf p Z) (idsB e) := by
  intro x hx
  simpa [ZStmt.mentionsL, ZStmt.mentions] using hx

theorem gm_cond {c : BExpr (ZMod p)} {gc pt pe : Buf p Z} {T E : List ZId} (hc : Sub hm gc (idsB c)) (ht : Sub hm pt T) (he : Sub hm pe E) :
    Sub hm (gc ++ condGuard c pt pe []) (idsB c ++ (T ++ E)) := by
  have h1 : Sub hm (condGuard c pt pe []) (idsB c ++ (T ++ E)) := by
    unfold condGuard
    split
    · exact gm_nil
    · intro x hx
      simp only [List.nil_append, ZStmt.mentionsL, ZStmt.mentions, List.append_nil, List.mem_append] at hx ⊢
      rcases hx with (hx | hx) | hx
      · exact Or.inl hx
      · exact Or.inr (Or.inl (ht x hx))
      · exact Or.inr (Or.inr (he x hx))
  refine gm_mono (gm_app hc h1) ?_
  intro x
  simp only [List.mem_append]
  tauto

mutual
theorem gmF : ∀ e : FExpr (ZMod p), Sub hm (gF Z e) (idsF e)
  | .value _ => gm_nil
  | .ident _ => gm_nil
  | .select l r => by
    rw [gF_select]
    exact gm_mono (gm_app (gmFs l) (gmU r)) (by intro x; simp only [idsF, idsB, idsF, idsUI, idsU, List.append_nil, List.nil_append, List.mem_append]; tauto)
  | .add l r => by
    rw [gF_add]
    exact gm_mono (gm_app (gmF l) (gmF r)) (by intro x; simp only [idsF, idsB, idsF, idsUI, idsU, List.append_nil, List.nil_append, List.mem_append]; tauto)
  | .sub l r => by
    rw [gF_sub]
    exact gm_mono (gm_app (gmF l) (gmF r)) (by intro x; simp only [idsF, idsB, idsF, idsUI, idsU, List.append_nil, List.nil_append, List.mem_append]; tauto)
  | .mult l r => by
    rw [gF_mult]
    exact gm_mono (gm_app (gmF l) (gmF r)) (by intro x; simp only [idsF, idsB, idsF, idsUI, idsU, List.append_nil, List.nil_append, List.mem_append]; tauto)
  | .and l r => by
    rw [gF_and]
    exact gm_mono (gm_app (gmF l) (gmF r)) (by intro x; simp only [idsF, idsB, idsF, idsUI, idsU, List.append_nil, List.nil_append, List.mem_append]; tauto)
  | .or l r => by
    rw [gF_or]
    exact gm_mono (gm_app (gmF l) (gmF r)) (by intro x; simp only [idsF, idsB, idsF, idsUI, idsU, List.append_nil, List.nil_append, List.mem_append]; tauto)
  | .xor l r => by
    rw [gF_xor]
    exact gm_mono (gm_app (gmF l) (gmF r)) (by intro x; simp only [idsF, idsB, idsF, idsUI, idsU, List.append_nil, List.nil_append, List.mem_append]; tauto)
  | .pow l r => by
    rw [gF_pow]
    exact gm_mono (gm_app (gmF l) (gmU r)) (by intro x; simp only [idsF, idsB, idsF, idsUI, idsU, List.append_nil, List.nil_append, List.mem_append]; tauto)
  | .leftShift l r => by
    rw [gF_leftShift]
    exact gm_mono (gm_app (gmF l) (gmU r)) (by intro x; simp only [idsF, idsB, idsF, idsUI, idsU, List.append_nil, List.nil_append, List.mem_append]; tauto)
  | .rightShift l r => by
    rw [gF_rightShift]
    exact gm_mono (gm_app (gmF l) (gmU r)) (by intro x; simp only [idsF, idsB, idsF, idsUI, idsU, List.append_nil, List.nil_append, List.mem_append]; tauto)
  | .div l r => by
    rw [gF_div]
    exact gm_mono (gm_app (gm_app (gmF l) (gmF r)) (gm_single)) (by intro x; simp only [idsF, idsB, idsF, idsUI, idsU, List.append_nil, List.nil_append, List.mem_append]; tauto)
  | .cond c t e => by
    rw [gF_cond]
    exact gm_mono (gm_cond (gmB c) (gmF t) (gmF e)) (by intro x; simp only [idsF, idsB, idsF, idsUI, idsU, List.append_nil, List.nil_append, List.mem_append]; tauto)
theorem gmFs : ∀ es : List (FExpr (ZMod p)), Sub hm (gFs Z es) (idsFs es)
  | [] => gm_nil
  | e :: es => by
    rw [gFs_cons]
    exact gm_mono (gm_app (gmF e) (gmFs es)) (by intro x; simp only [idsFs, idsB, idsF, idsUI, idsU, List.append_nil, List.nil_append, List.mem_append]; tauto)
theorem gmB : ∀ e : BExpr (ZMod p), Sub hm (gB Z e) (idsB e)
  | .value _ => gm_nil
  | .ident _ => gm_nil
  | .select l r => by
    rw [gB_select]
    exact gm_mono (gm_app (gmBs l) (gmU r)) (by intro x; simp only [idsB, idsB, idsF, idsUI, idsU, List.append_nil, List.nil_append, List.mem_append]; tauto)
  | .fieldLt l r => by
    rw [gB_lt]
    split
    · exact gm_mono (gm_app (gmF l) (gmF r)) (by intro x; simp only [idsB, idsB, idsF, idsUI, idsU, List.append_nil, List.nil_append, List.mem_append]; tauto)
    · exact gm_mono (gm_app (gm_app (gm_app (gmF l) (gmF r)) (gm_single)) (gm_single)) (by intro x; simp only [idsB, idsB, idsF, idsUI, idsU, List.append_nil, List.nil_append, List.mem_append]; tauto)
  | .fieldLe l r => by
    rw [gB_fieldLe]
    exact gm_mono (gm_app (gmF l) (gmF r)) (by intro x; simp only [idsB, idsB, idsF, idsUI, idsU, List.append_nil, List.nil_append, List.mem_append]; tauto)
  | .fieldEq l r => by
    rw [gB_fieldEq]
    exact gm_mono (gm_app (gmF l) (gmF r)) (by intro x; simp only [idsB, idsB, idsF, idsUI, idsU, List.append_nil, List.nil_append, List.mem_append]; tauto)
  | .uintLt l r => by
    rw [gB_uintLt]
    exact gm_mono (gm_app (gmU l) (gmU r)) (by intro x; simp only [idsB, idsB, idsF, idsUI, idsU, List.append_nil, List.nil_append, List.mem_append]; tauto)
  | .uintLe l r => by
    rw [gB_uintLe]
    exact gm_mono (gm_app (gmU l) (gmU r)) (by intro x; simp only [idsB, idsB, idsF, idsUI, idsU, List.append_nil, List.nil_append, List.mem_append]; tauto)
  | .uintEq l r => by
    rw [gB_uintEq]
    exact gm_mono (gm_app (gmU l) (gmU r)) (by intro x; simp only [idsB, idsB, idsF, idsUI, idsU, List.append_nil, List.nil_append, List.mem_append]; tauto)
  | .boolEq l r => by
    rw [gB_boolEq]
    exact gm_mono (gm_app (gmB l) (gmB r)) (by intro x; simp only [idsB, idsB, idsF, idsUI, idsU, List.append_nil, List.nil_append, List.mem_append]; tauto)
  | .or l r => by
    rw [gB_or]
    exact gm_mono (gm_app (gmB l) (gmB r)) (by intro x; simp only [idsB, idsB, idsF, idsUI, idsU, List.append_nil, List.nil_append, List.mem_append]; tauto)
  | .and l r => by
    rw [gB_and]
    exact gm_mono (gm_app (gmB l) (gmB r)) (by intro x; simp only [idsB, idsB, idsF, idsUI, idsU, List.append_nil, List.nil_append, List.mem_append]; tauto)
  | .not e => by
    rw [gB_not]
    exact gmB e
  | .cond c t e => by
    rw [gB_cond]
    exact gm_mono (gm_cond (gmB c) (gmB t) (gmB e)) (by intro x; simp only [idsB, idsB, idsF, idsUI, idsU, List.append_nil, List.nil_append, List.mem_append]; tauto)
theorem gmBs : ∀ es : List (BExpr (ZMod p)), Sub hm (gBs Z es) (idsBs es)
  | [] => gm_nil
  | e :: es => by
    rw [gBs_cons]
    exact gm_mono (gm_app (gmB e) (gmBs es)) (by intro x; simp only [idsBs, idsB, idsF, idsUI, idsU, List.append_nil, List.nil_append, List.mem_append]; tauto)
theorem gmU : ∀ e : UExpr (ZMod p), Sub hm (gU Z e) (idsU e)
  | .mk w _ i => (gmUI w i)
theorem gmUs : ∀ es : List (UExpr (ZMod p)), Sub hm (gUs Z es) (idsUs es)
  | [] => gm_nil
  | e :: es => by
    rw [gUs_cons]
    exact gm_mono (gm_app (gmU e) (gmUs es)) (by intro x; simp only [idsUs, idsB, idsF, idsUI, idsU, List.append_nil, List.nil_append, List.mem_append]; tauto)
theorem gmUI : ∀ (w : ℕ) (e : UInner (ZMod p)), Sub hm (gUI Z w e) (idsUI e)
  | _, .value _ => gm_nil
  | _, .ident _ => gm_nil
  | w, .select l r => by
    rw [gUI_select]
    exact gm_mono (gm_app (gmUs l) (gmU r)) (by intro x; simp only [idsUI, idsB, idsF, idsUI, idsU, List.append_nil, List.nil_append, List.mem_append]; tauto)
  | w, .add l r => by
    rw [gUI_add]
    exact gm_mono (gm_app (gmU l) (gmU r)) (by intro x; simp only [idsUI, idsB, idsF, idsUI, idsU, List.append_nil, List.nil_append, List.mem_append]; tauto)
  | w, .sub l r => by
    rw [gUI_sub]
    exact gm_mono (gm_app (gmU l) (gmU r)) (by intro x; simp only [idsUI, idsB, idsF, idsUI, idsU, List.append_nil, List.nil_append, List.mem_append]; tauto)
  | w, .mult l r => by
    rw [gUI_mult]
    exact gm_mono (gm_app (gmU l) (gmU r)) (by intro x; simp only [idsUI, idsB, idsF, idsUI, idsU, List.append_nil, List.nil_append, List.mem_append]; tauto)
  | w, .rem l r => by
    rw [gUI_rem]
    exact gm_mono (gm_app (gmU l) (gmU r)) (by intro x; simp only [idsUI, idsB, idsF, idsUI, idsU, List.append_nil, List.nil_append, List.mem_append]; tauto)
  | w, .xor l r => by
    rw [gUI_xor]
    exact gm_mono (gm_app (gmU l) (gmU r)) (by intro x; simp only [idsUI, idsB, idsF, idsUI, idsU, List.append_nil, List.nil_append, List.mem_append]; tauto)
  | w, .and l r => by
    rw [gUI_and]
    exact gm_mono (gm_app (gmU l) (gmU r)) (by intro x; simp only [idsUI, idsB, idsF, idsUI, idsU, List.append_nil, List.nil_append, List.mem_append]; tauto)
  | w, .or l r => by
    rw [gUI_or]
    exact gm_mono (gm_app (gmU l) (gmU r)) (by intro x; simp only [idsUI, idsB, idsF, idsUI, idsU, List.append_nil, List.nil_append, List.mem_append]; tauto)
  | w, .leftShift l r => by
    rw [gUI_leftShift]
    exact gm_mono (gm_app (gmU l) (gmU r)) (by intro x; simp only [idsUI, idsB, idsF, idsUI, idsU, List.append_nil, List.nil_append, List.mem_append]; tauto)
  | w, .rightShift l r => by
    rw [gUI_rightShift]
    exact gm_mono (gm_app (gmU l) (gmU r)) (by intro x; simp only [idsUI, idsB, idsF, idsUI, idsU, List.append_nil, List.nil_append, List.mem_append]; tauto)
  | w, .div l r => by
    rw [gUI_div]
    exact gm_mono (gm_app (gm_app (gmU l) (gmU r)) (gm_single)) (by intro x; simp only [idsUI, idsB, idsF, idsUI, idsU, List.append_nil, List.nil_append, List.mem_append]; tauto)
  | w, .not e => by
    rw [gUI_not]
    exact gmU e
  | w, .cond c t e => by
    rw [gUI_cond]
    exact gm_mono (gm_cond (gmB c) (gmU t) (gmU e)) (by intro x; simp only [idsUI, idsB, idsF, idsUI, idsU, List.append_nil, List.nil_append, List.mem_append]; tauto)
end

theorem gmZ (e : ZExpr (ZMod p)) : Sub hm (gZ Z e) (idsZ e) := by
  cases e with
  | field e => exact gmF e
  | bool e => exact gmB e
  | uint e => exact gmU e

theorem gmZs (es : List (ZExpr (ZMod p))) : Sub hm (gZs Z es) (idsZs es) := by
  induction es with
  | nil => exact gm_nil
  | cons e es ih =>
    rw [gZs_cons]
    exact gm_mono (gm_app (gmZ e) ih) (by intro x; simp only [idsZs, idsB, idsF, idsUI, idsU, List.append_nil, List.nil_append, List.mem_append]; tauto)


/-! ### Statements -/

theorem zguard_assigns {s : ZStmt (ZMod p) Z} (h : ZGuard s) : s.assigns = [] := by
  have hl : ∀ {gs : Buf p Z}, (∀ s ∈ gs, s.assigns = []) → ZStmt.assignsL gs = [] := by
    intro gs
    induction gs with
    | nil => exact fun _ => rfl
    | cons g gs ih =>
      intro h
      simp only [ZStmt.assignsL, h g (by simp), ih (fun s hs => h s (by simp [hs])), List.append_nil]
  induction h with
  | assertion _ => rfl
  | ifElse _ _ iht ihe => simp only [ZStmt.assigns, hl iht, hl ihe, List.append_nil]

theorem zguards_assigns {gs : Buf p Z} (h : ZGuards gs) : ZStmt.assignsL gs = [] := by
  induction gs with
  | nil => rfl
  | cons g gs ih =>
    simp only [ZStmt.assignsL, zguard_assigns (h g (by simp)), ih (fun s hs => h s (by simp [hs])), List.append_nil]

theorem apart_append {a b : List (ZStmt (ZMod p) Z)} : ZStmt.BranchesApartL hm (a ++ b) ↔ ZStmt.BranchesApartL hm a ∧ ZStmt.BranchesApartL hm b := by
  induction a with
  | nil => simp [ZStmt.BranchesApartL]
  | cons s a ih =>
    simp only [List.cons_append, ZStmt.BranchesApartL, ih]
    tauto

theorem zguards_apart {gs : Buf p Z} (h : ZGuards gs) : ZStmt.BranchesApartL hm gs := by
  have hl : ∀ {gs : Buf p Z}, (∀ s ∈ gs, s.BranchesApart hm) → ZStmt.BranchesApartL hm gs := by
    intro gs
    induction gs with
    | nil => exact fun _ => trivial
    | cons g gs ih =>
      intro h2
      exact ⟨h2 g (by simp), ih (fun s hs => h2 s (by simp [hs]))⟩
  have hs : ∀ {s : ZStmt (ZMod p) Z}, ZGuard s → s.BranchesApart hm := by
    intro s h
    induction h with
    | assertion _ => trivial
    | ifElse ht he iht ihe =>
      refine ⟨hl iht, hl ihe, ?_⟩
      rw [zguards_assigns ht]; simp
  exact hl fun s h' => hs (h s h')

/-- What the extraction does to the variables of statements. -/
structure ScopeKept (hm : Z → List ZId) (ss : List (ZStmt (ZMod p) Z)) (A M : List ZId) : Prop where
  assigns : ZStmt.assignsL ss = A
  mentions : Sub hm ss M
  apart : ZStmt.BranchesApartL hm ss

theorem ScopeKept.of {gs : Buf p Z} {s : ZStmt (ZMod p) Z} {A M G : List ZId} (hg : ZGuards gs) (hG : Sub hm gs G) (h1 : s.assigns = A)
    (h2 : ∀ x ∈ s.mentions hm, x ∈ M) (h3 : ∀ x ∈ G, x ∈ M) (h4 : s.BranchesApart hm) : ScopeKept hm (gs ++ [s]) A M := by
  refine ⟨?_, ?_, ?_⟩
  · rw [assigns_append, zguards_assigns hg]
    simp [ZStmt.assignsL, h1]
  · intro x hx
    rw [mentions_append, List.mem_append] at hx
    rcases hx with hx | hx
    · exact h3 x (hG x hx)
    · exact h2 x (by simpa [ZStmt.mentionsL] using hx)
  · exact apart_append.2 ⟨zguards_apart hg, h4, trivial⟩

section
variable {hx : Z → Buf p Z → Z} (hh : ∀ z, ∀ x ∈ hm (hx z []), x ∈ hm z)
include hh

mutual
theorem scopeStmt : ∀ (s : ZStmt (ZMod p) Z), s.Extractable → s.BranchesApart hm → ScopeKept hm (exStmt hx s) s.assigns (s.mentions hm)
  | .ret es, h, hf => by
    simp only [exStmt]
    rw [exZs_eq es, List.nil_append]
    exact ScopeKept.of (zgZs es) (gmZs es) rfl (fun _ h => h) (fun _ h => h) trivial
  | .definition x e, h, hf => by
    simp only [exStmt]
    rw [exZ_eq e, List.nil_append]
    exact ScopeKept.of (zgZ e) (gmZ e) rfl (fun _ h => h) (fun y hy => by simp [ZStmt.mentions, hy]) trivial
  | .ifElse c t e, h, hf => by
    have h1 := scopeStmts t h.2.1 hf.1
    have h2 := scopeStmts e h.2.2 hf.2.1
    simp only [exStmt]
    rw [exB_eq c, List.nil_append]
    refine ScopeKept.of (zgB c) (gmB c) ?_ ?_ (fun y hy => by simp [ZStmt.mentions, hy]) ?_
    · simp only [ZStmt.assigns, h1.assigns, h2.assigns]
    · intro x hx
      simp only [ZStmt.mentions, List.mem_append] at hx ⊢
      rcases hx with (hx | hx) | hx
      · tauto
      · have := h1.mentions x hx; tauto
      · have := h2.mentions x hx; tauto
    · refine ⟨h1.apart, h2.apart, fun x hx h' => ?_⟩
      rw [h1.assigns] at hx
      exact hf.2.2 x hx (h2.mentions x h')
  | .assertion e err, h, hf => by
    simp only [exStmt]
    rw [exB_eq e, List.nil_append]
    exact ScopeKept.of (zgB e) (gmB e) rfl (fun _ h => h) (fun _ h => h) trivial
  | .multiDef xs embed g args, h, hf => by
    simp only [exStmt]
    rw [exZs_eq args, List.nil_append]
    exact ScopeKept.of (zgZs args) (gmZs args) rfl (fun _ h => h) (fun y hy => by simp [ZStmt.mentions, hy]) trivial
  | .log es, h, hf => by
    simp only [exStmt]
    rw [exZss_eq es, List.nil_append]
    exact ScopeKept.of (zgZs es.flatten) (gmZs es.flatten) rfl (fun _ h => h) (fun _ h => h) trivial
  | .assembly ss, h, hf => by
    have hb : exAsms hx ss [] = (ss.map (mapHint hx), []) := exAsms_poly h
    simp only [exStmt, hb]
    refine ScopeKept.of (G := []) zg_nil gm_nil ?_ ?_ (fun _ h => by cases h) trivial
    · simp only [ZStmt.assigns, List.flatMap_map]
      congr 1
      funext s
      cases s <;> rfl
    · intro x hx
      simp only [ZStmt.mentions, List.mem_flatMap, List.mem_map] at hx ⊢
      obtain ⟨_, ⟨s, hs, rfl⟩, hx⟩ := hx
      refine ⟨s, hs, ?_⟩
      cases s with
      | assignment xs f args =>
        simp only [mapHint, ZAsm.mentions, List.mem_append] at hx ⊢
        have := hh f x
        tauto
      | constraint l r info => exact hx
theorem scopeStmts : ∀ (ss : List (ZStmt (ZMod p) Z)), ZStmt.ExtractableL ss → ZStmt.BranchesApartL hm ss →
    ScopeKept hm (exStmts hx ss) (ZStmt.assignsL ss) (ZStmt.mentionsL hm ss)
  | [], _, _ => ⟨rfl, fun _ h => h, trivial⟩
  | s :: ss, h, hf => by
    have h1 := scopeStmt s h.1 hf.1
    have h2 := scopeStmts ss h.2 hf.2
    simp only [exStmts]
    refine ⟨?_, ?_, ?_⟩
    · rw [assigns_append, h1.assigns, h2.assigns]; rfl
    · exact gm_app h1.mentions h2.mentions
    · exact apart_append.2 ⟨h1.apart, h2.apart⟩
end
end

theorem extract_apart {hx : Z → Buf p Z → Z} (hh : ∀ z, ∀ x ∈ hm (hx z []), x ∈ hm z) {f : ZFun (ZMod p) Z}
    (hf : ZStmt.ExtractableL f.body) (h : ZStmt.BranchesApartL hm f.body) : ZStmt.BranchesApartL hm (extractPanics hx f).body :=
  (scopeStmts hh f.body hf h).apart

/-! ### Divisions by zero fail at a guard -/

section
variable {O : Oracle p Z} {hx : Z → Buf p Z → Z}

theorem guards_outside {gs : Buf p Z} (h : Guards gs) {σ : ZState p} {e : Fault} (hr : ExecL O σ gs (.error e)) : FailsOutsideL O σ gs e := by
  have hl : ∀ {gs : Buf p Z}, (∀ s ∈ gs, ∀ {σ : ZState p} {e}, Exec O σ s (.error e) → FailsOutside O σ s e) →
      ∀ {σ : ZState p} {e}, ExecL O σ gs (.error e) → FailsOutsideL O σ gs e := by
    intro gs
    induction gs with
    | nil => intro _ _ _ h; cases h
    | cons g gs ih =>
      intro h σ e hr
      cases hr with
      | fault hr => exact .head (h g (by simp) hr)
      | cons h1 h2 => exact .tail h1 (ih (fun s hs => h s (by simp [hs])) h2)
  have hs : ∀ {s : ZStmt (ZMod p) Z}, IsGuard s → ∀ {σ : ZState p} {e}, Exec O σ s (.error e) → FailsOutside O σ s e := by
    intro s h
    induction h with
    | assertion e err =>
      intro σ f hr
      cases hr with
      | assertFailed h => exact .assertFailed h
      | assertFault hc h => exact .assertFault hc h
    | ifElse ht he iht ihe =>
      intro σ f hr
      cases hr with
      | ifElse h1 h2 h3 => exact .alternative h1 h2 (hl ihe h3)
      | ifFault h1 => exact .condition h1
      | thenFault h1 h2 => exact .consequence h1 (hl iht h2)
  exact hl (fun s hs' => hs (h s hs')) hr

theorem outside_append_left {a b : List (ZStmt (ZMod p) Z)} {σ : ZState p} {e : Fault} (h : FailsOutsideL O σ a e) : FailsOutsideL O σ (a ++ b) e := by
  induction a generalizing σ with
  | nil => cases h
  | cons s a ih =>
    cases h with
    | head h => exact .head h
    | tail h1 h2 => exact .tail h1 (ih h2)

theorem outside_append_right {a b : List (ZStmt (ZMod p) Z)} {σ σ' : ZState p} {e : Fault} (h1 : ExecL O σ a (.ok σ')) (h2 : FailsOutsideL O σ' b e) :
    FailsOutsideL O σ (a ++ b) e := by
  induction a generalizing σ with
  | nil => cases h1; exact h2
  | cons s a ih => cases h1 with | cons h3 h4 => exact .tail h3 (ih h4)

theorem guarded_div {α : Type} {gs : Buf p Z} {s : ZStmt (ZMod p) Z} {σ : ZState p} {r : Except Fault α} (hg : GI O σ gs r)
    (hr : r = .error .divZero) : ∃ e, FailsOutsideL O σ (gs ++ [s]) e := by
  rcases hg.guards.total O σ with h | ⟨e, h⟩
  · exact absurd hr (hg.safe h)
  · exact ⟨e, outside_append_left (guards_outside hg.guards h)⟩

mutual
theorem divStmt (hp : 2 < p) (hO : ∀ z, O.hint (hx z []) = O.hint z) : ∀ (s : ZStmt (ZMod p) Z) {σ : ZState p}, s.Extractable →
    Exec O σ s (.error .divZero) → ∃ e, FailsOutsideL O σ (exStmt hx s) e
  | .ret es, σ, h, hr => by
    simp only [exStmt]
    rw [exZs_eq es, List.nil_append]
    cases hr with | retFault hr => exact guarded_div (giZs hp h) hr
  | .definition x e, σ, h, hr => by
    simp only [exStmt]
    rw [exZ_eq e, List.nil_append]
    cases hr with | definitionFault hr => exact guarded_div (giZ hp h) hr
  | .ifElse c t e, σ, h, hr => by
    have ht := @divStmts hp hO t
    have he := @divStmts hp hO e
    simp only [exStmt]
    rw [exB_eq c, List.nil_append]
    have hg := giB (O := O) (σ := σ) hp c h.1
    cases hr with
    | ifElse h1 h2 h3 =>
      obtain ⟨f, hf⟩ := he h.2.2 h3
      exact ⟨f, outside_append_right (hg.pass _ h1) (.head (.alternative h1 (((exStmts_same hp hO t h.2.1).ok _ _).2 h2) hf))⟩
    | ifFault h1 => exact guarded_div hg h1
    | thenFault h1 h2 =>
      obtain ⟨f, hf⟩ := ht h.2.1 h2
      exact ⟨f, outside_append_right (hg.pass _ h1) (.head (.consequence h1 hf))⟩
  | .assertion e err, σ, h, hr => by
    simp only [exStmt]
    rw [exB_eq e, List.nil_append]
    have hg := giB (O := O) (σ := σ) hp e h
    cases hr with
    | assertFault hc hr =>
      rcases hg.guards.total O σ with h1 | ⟨f, h1⟩
      · exact absurd hr (Conjunct.safe hp hc h h1)
      · exact ⟨f, outside_append_left (guards_outside hg.guards h1)⟩
  | .multiDef xs embed g args, σ, h, hr => by
    simp only [exStmt]
    rw [exZs_eq args, List.nil_append]
    cases hr with
    | embedFault _ hr => cases hr
    | argsFault hr => exact guarded_div (giZs hp h) hr
  | .log es, σ, h, hr => by
    simp only [exStmt]
    rw [exZss_eq es, List.nil_append]
    cases hr with | logFault hr => exact guarded_div (giZs hp h) hr
  | .assembly ss, σ, h, hr => by
    cases hr with | assembly hr => exact absurd hr (execAsms_noDiv h)
theorem divStmts (hp : 2 < p) (hO : ∀ z, O.hint (hx z []) = O.hint z) : ∀ (ss : List (ZStmt (ZMod p) Z)) {σ : ZState p}, ZStmt.ExtractableL ss →
    ExecL O σ ss (.error .divZero) → ∃ e, FailsOutsideL O σ (exStmts hx ss) e
  | [], _, _, hr => by cases hr
  | s :: ss, σ, h, hr => by
    have h1 := @divStmt hp hO s
    have h2 := @divStmts hp hO ss
    simp only [exStmts]
    cases hr with
    | fault hr =>
      obtain ⟨e, he⟩ := h1 h.1 hr
      exact ⟨e, outside_append_left he⟩
    | cons h3 h4 =>
      obtain ⟨e, he⟩ := h2 h.2 h4
      exact ⟨e, outside_append_right (((exStmt_same hp hO s h.1).ok _ _).2 h3) he⟩
end
end

end Zok.Px
