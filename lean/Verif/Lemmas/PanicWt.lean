import Verif.Lemmas.PanicStmt
import Verif.Spec.ZirPlain
import Verif.Spec.NoTrunc
import Verif.Spec.OracleFree
import Verif.Spec.Scope

/-
Lemmas on the extraction of panics: the guards are well-typed, plain, and the last statement is still the only return.
-/

set_option linter.unusedSectionVars false
set_option linter.unusedSimpArgs false
set_option linter.unusedVariables false

namespace Zok.Px
variable {p : ℕ} {Z : Type} [Fact p.Prime] {Γ Γ' Γ'' : TCtx}

theorem wt_append {a b : List (ZStmt (ZMod p) Z)} (ha : WtStmts Γ a Γ') (hb : WtStmts Γ' b Γ'') : WtStmts Γ (a ++ b) Γ'' := by
  induction a generalizing Γ with
  | nil => cases ha; exact hb
  | cons s ss ih => cases ha with | cons h1 h2 => exact .cons h1 (ih h2)

theorem plain_append {a b : List (ZStmt (ZMod p) Z)} {V : FullVars} :
    plainStmts V (a ++ b) = (plainStmts V a).bind fun V => plainStmts V b := by
  induction a generalizing V with
  | nil => rfl
  | cons s ss ih =>
    simp only [List.cons_append, plainStmts]
    cases plainStmt V s with
    | none => rfl
    | some V' => simp only [Option.bind_some]; exact ih

/-- Guards that are well-typed, and plain if `P` holds. -/
structure GW (Γ : TCtx) (gs : Buf p Z) (P : FullVars → Bool) : Prop where
  wt : WtStmts Γ gs Γ
  plain : ∀ V, P V = true → plainStmts V gs = some V

theorem GW.nil {P : FullVars → Bool} : GW Γ ([] : Buf p Z) P := ⟨.nil, fun _ _ => rfl⟩

theorem GW.append {a b : Buf p Z} {P Q R : FullVars → Bool} (ha : GW Γ a P) (hb : GW Γ b Q)
    (h : ∀ V, R V = true → P V = true ∧ Q V = true) : GW Γ (a ++ b) R :=
  ⟨wt_append ha.wt hb.wt, fun V hV => by rw [plain_append, ha.plain V (h V hV).1]; exact hb.plain V (h V hV).2⟩

theorem GW.mono {a : Buf p Z} {P Q : FullVars → Bool} (ha : GW Γ a P) (h : ∀ V, Q V = true → P V = true) : GW Γ a Q :=
  ⟨ha.wt, fun V hV => ha.plain V (h V hV)⟩

theorem GW.single {e : BExpr (ZMod p)} {err : RuntimeError} {P : FullVars → Bool} (h1 : WtB Γ e)
    (h2 : ∀ c, Conjunct c e → ¬ ComparesConstants c) (h3 : ∀ V, P V = true → plainB V e = true) :
    GW Γ ([.assertion e err] : Buf p Z) P :=
  ⟨.cons (.assertion h1 h2) .nil, fun V hV => by simp [plainStmts, plainStmt, h3 V hV]⟩

theorem GW.cond {c : BExpr (ZMod p)} {gc pt pe : Buf p Z} {P Q R S : FullVars → Bool} (hc : GW Γ gc P) (hw : WtB Γ c)
    (ht : GW Γ pt Q) (he : GW Γ pe R) (h : ∀ V, S V = true → P V = true ∧ Q V = true ∧ R V = true)
    (hp : ∀ V, P V = true → plainB V c = true) : GW Γ (gc ++ condGuard c pt pe []) S := by
  refine hc.append (Q := fun V => P V && (Q V && R V)) ?_ (fun V hV => by simp [h V hV])
  unfold condGuard
  split
  · exact GW.nil
  · refine ⟨.cons (.ifElse hw ht.wt he.wt) .nil, fun V hV => ?_⟩
    simp only [Bool.and_eq_true] at hV
    simp [plainStmts, plainStmt, hp V hV.1, ht.plain V hV.2.1, he.plain V hV.2.2]

theorem gw_literal {e : UExpr (ZMod p)} (h : IsLiteral32 e) : gU Z e = [] := by
  obtain ⟨⟨n, rfl, _⟩, _⟩ := h
  rfl

theorem conj_not {c e : BExpr (ZMod p)} (h : Conjunct c (.not e)) : ¬ ComparesConstants c := by
  cases h with | self => exact id

mutual
theorem gwF : ∀ e : FExpr (ZMod p), WtF Γ e → GW Γ (gF Z e) (fun V => plainF V e)
  | .value _, _ => GW.nil
  | .ident _, _ => GW.nil
  | .select es i, h => by
    rw [gF_select]
    exact (gwFs es h.1).append (gwU i h.2.2.1) (fun V hV => by simpa [plainF] using hV)
  | .add l r, h => by
    rw [gF_add]
    exact (gwF l h.1).append (gwF r h.2) (fun V hV => by simpa [plainF] using hV)
  | .sub l r, h => by
    rw [gF_sub]
    exact (gwF l h.1).append (gwF r h.2) (fun V hV => by simpa [plainF] using hV)
  | .mult l r, h => by
    rw [gF_mult]
    exact (gwF l h.1).append (gwF r h.2) (fun V hV => by simpa [plainF] using hV)
  | .div l r, h => by
    rw [gF_div]
    have hg : GW Γ ([fieldDivGuard r] : Buf p Z) (fun V => plainF V r) :=
      GW.single ⟨h.2, trivial⟩ (fun c => conj_not) (fun V hV => by simp [plainB, plainF, hV])
    exact ((gwF l h.1).append (gwF r h.2) (R := fun V => plainF V (.div l r)) (fun V hV => by simpa [plainF] using hV)).append hg
      (fun V hV => ⟨hV, by simp only [plainF, Bool.and_eq_true] at hV; exact hV.2⟩)
  | .pow l r, h => by
    rw [gF_pow, gw_literal h.2, List.append_nil]
    exact (gwF l h.1).mono (fun V hV => by simpa [plainF] using hV)
  | .and _ _, h => h.elim
  | .or _ _, h => h.elim
  | .xor _ _, h => h.elim
  | .leftShift _ _, h => h.elim
  | .rightShift _ _, h => h.elim
  | .cond c t e, h => by
    rw [gF_cond]
    exact (gwB c h.1).cond h.1 (gwF t h.2.1) (gwF e h.2.2) (fun V hV => by simpa [plainF, and_assoc] using hV) (fun _ h => h)
theorem gwFs : ∀ es : List (FExpr (ZMod p)), WtFs Γ es → GW Γ (gFs Z es) (fun V => plainFs V es)
  | [], _ => GW.nil
  | e :: es, h => by
    rw [gFs_cons]
    exact (gwF e h.1).append (gwFs es h.2) (fun V hV => by simpa [plainFs] using hV)
theorem gwB : ∀ e : BExpr (ZMod p), WtB Γ e → GW Γ (gB Z e) (fun V => plainB V e)
  | .value _, _ => GW.nil
  | .ident _, _ => GW.nil
  | .select es i, h => by
    rw [gB_select]
    exact (gwBs es h.1).append (gwU i h.2.2.1) (fun V hV => by simpa [plainB] using hV)
  | .fieldLt l r, h => by
    have hb := (gwF l h.1).append (gwF r h.2) (R := fun V => plainB V (.fieldLt l r)) (fun V hV => by simpa [plainB] using hV)
    rw [gB_lt]
    split
    · exact hb
    · have h1 : GW Γ ([ltGuardMax l r] : Buf p Z) (fun V => plainB V (.fieldLt l r)) :=
        GW.single ⟨⟨trivial, h⟩, trivial⟩ (fun c hc => by cases hc with | self => exact fun h => by simp [ComparesConstants, FExpr.isConst] at h)
          (fun V hV => by simpa [plainB, plainF] using hV)
      have h2 : GW Γ ([ltGuardMin l r] : Buf p Z) (fun V => plainB V (.fieldLt l r)) :=
        GW.single ⟨⟨h.2, h.1⟩, trivial⟩ (fun c => conj_not) (fun V hV => by simpa [plainB, plainF, and_comm] using hV)
      exact (hb.append h1 (R := fun V => plainB V (.fieldLt l r)) fun V hV => ⟨hV, hV⟩).append h2 fun V hV => ⟨hV, hV⟩
  | .fieldLe l r, h => by
    rw [gB_fieldLe]
    exact (gwF l h.1).append (gwF r h.2) (fun V hV => by simpa [plainB] using hV)
  | .fieldEq l r, h => by
    rw [gB_fieldEq]
    exact (gwF l h.1).append (gwF r h.2) (fun V hV => by simpa [plainB] using hV)
  | .uintLt l r, h => by
    rw [gB_uintLt]
    exact (gwU l h.1).append (gwU r h.2.1) (fun V hV => by simpa [plainB] using hV)
  | .uintLe l r, h => by
    rw [gB_uintLe]
    exact (gwU l h.1).append (gwU r h.2.1) (fun V hV => by simpa [plainB] using hV)
  | .uintEq l r, h => by
    rw [gB_uintEq]
    exact (gwU l h.1).append (gwU r h.2.1) (fun V hV => by simpa [plainB] using hV)
  | .boolEq l r, h => by
    rw [gB_boolEq]
    exact (gwB l h.1).append (gwB r h.2) (fun V hV => by simpa [plainB] using hV)
  | .or l r, h => by
    rw [gB_or]
    exact (gwB l h.1).append (gwB r h.2) (fun V hV => by simpa [plainB] using hV)
  | .and l r, h => by
    rw [gB_and]
    exact (gwB l h.1).append (gwB r h.2) (fun V hV => by simpa [plainB] using hV)
  | .not e, h => by
    rw [gB_not]
    exact gwB e h
  | .cond c t e, h => by
    rw [gB_cond]
    exact (gwB c h.1).cond h.1 (gwB t h.2.1) (gwB e h.2.2) (fun V hV => by simpa [plainB, and_assoc] using hV) (fun _ h => h)
theorem gwBs : ∀ es : List (BExpr (ZMod p)), WtBs Γ es → GW Γ (gBs Z es) (fun V => plainBs V es)
  | [], _ => GW.nil
  | e :: es, h => by
    rw [gBs_cons]
    exact (gwB e h.1).append (gwBs es h.2) (fun V hV => by simpa [plainBs] using hV)
theorem gwU : ∀ e : UExpr (ZMod p), WtU Γ e → GW Γ (gU Z e) (fun V => plainU V e)
  | .mk w m i, h => (gwUI w i h.2.1 h.2.2)
theorem gwUs : ∀ (w : ℕ) (es : List (UExpr (ZMod p))), WtUs Γ w es → GW Γ (gUs Z es) (fun V => plainUs V es)
  | _, [], _ => GW.nil
  | w, e :: es, h => by
    rw [gUs_cons]
    exact (gwU e h.1.1).append (gwUs w es h.2) (fun V hV => by simpa [plainUs] using hV)
theorem gwUI : ∀ (w : ℕ) (e : UInner (ZMod p)), WidthOk p w → WtUI Γ w e → GW Γ (gUI Z w e) (fun V => plainUI V e)
  | _, .value _, _, _ => GW.nil
  | _, .ident _, _, _ => GW.nil
  | w, .select es i, _, h => by
    rw [gUI_select]
    exact (gwUs w es h.1).append (gwU i h.2.2.2.1) (fun V hV => by simpa [plainUI] using hV)
  | w, .add l r, _, h => by
    rw [gUI_add]
    exact (gwU l h.1).append (gwU r h.2.1) (fun V hV => by simpa [plainUI] using hV)
  | w, .mult l r, _, h => by
    rw [gUI_mult]
    exact (gwU l h.1).append (gwU r h.2.1) (fun V hV => by simpa [plainUI] using hV)
  | w, .rem l r, _, h => by
    rw [gUI_rem]
    exact (gwU l h.1).append (gwU r h.2.1) (fun V hV => by simpa [plainUI] using hV)
  | w, .xor l r, _, h => by
    rw [gUI_xor]
    exact (gwU l h.1).append (gwU r h.2.1) (fun V hV => by simpa [plainUI] using hV)
  | w, .and l r, _, h => by
    rw [gUI_and]
    exact (gwU l h.1).append (gwU r h.2.1) (fun V hV => by simpa [plainUI] using hV)
  | w, .or l r, _, h => by
    rw [gUI_or]
    exact (gwU l h.1).append (gwU r h.2.1) (fun V hV => by simpa [plainUI] using hV)
  | w, .sub l r, _, h => by
    rw [gUI_sub]
    exact (gwU l h.1).append (gwU r h.2.1) (fun V hV => by simp only [plainUI, Bool.and_eq_true] at hV; exact hV.1)
  | w, .div l r, hw, h => by
    rw [gUI_div]
    have hg : GW Γ ([uintDivGuard w r] : Buf p Z) (fun V => plainU V r) :=
      GW.single ⟨h.2.1, ⟨rfl, hw, Nat.two_pow_pos w⟩, h.2.2.2⟩ (fun c => conj_not) (fun V hV => by simp [plainB, plainU, plainUI, hV])
    exact ((gwU l h.1).append (gwU r h.2.1) (R := fun V => plainUI V (.div l r)) (fun V hV => by simpa [plainUI] using hV)).append hg
      (fun V hV => ⟨hV, by simp only [plainUI, Bool.and_eq_true] at hV; exact hV.2⟩)
  | w, .leftShift l r, _, h => by
    rw [gUI_leftShift, gw_literal h.2.2, List.append_nil]
    exact (gwU l h.1).mono (fun V hV => by simp only [plainUI, Bool.and_eq_true] at hV; exact hV.1)
  | w, .rightShift l r, _, h => by
    rw [gUI_rightShift, gw_literal h.2.2, List.append_nil]
    exact (gwU l h.1).mono (fun V hV => by simp only [plainUI, Bool.and_eq_true] at hV; exact hV.1)
  | w, .not e, _, h => by
    rw [gUI_not]
    exact (gwU e h.1)
  | w, .cond c t e, _, h => by
    rw [gUI_cond]
    exact (gwB c h.1).cond h.1 (gwU t h.2.1) (gwU e h.2.2.1) (fun V hV => by simpa [plainUI, and_assoc] using hV) (fun _ h => h)
end

theorem gwZ {e : ZExpr (ZMod p)} (h : WtZ Γ e) : GW Γ (gZ Z e) (fun V => plainZ V e) := by
  cases e with
  | field e => exact gwF e h
  | bool e => exact gwB e h
  | uint e => exact gwU e h

theorem gwZs {es : List (ZExpr (ZMod p))} (h : ∀ e ∈ es, WtZ Γ e) : GW Γ (gZs Z es) (fun V => es.all (plainZ V)) := by
  induction es with
  | nil => exact GW.nil
  | cons e es ih =>
    rw [gZs_cons]
    exact (gwZ (h e List.mem_cons_self)).append (ih fun e he => h e (List.mem_cons_of_mem _ he)) (fun V hV => by simpa using hV)

end Zok.Px
