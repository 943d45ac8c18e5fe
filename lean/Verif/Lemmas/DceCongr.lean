import Verif.Spec.DeadCode
import Verif.Spec.ZirPlain

/-
Lemmas: evaluation, types and ranges of an expression only depend on the variables in it.
-/

set_option linter.unusedSectionVars false
set_option linter.unusedSimpArgs false

namespace Zok.Dce
variable {p : ℕ} {Z : Type} [Fact p.Prime]

mutual
theorem evF {env env' : ZEnv p} : ∀ e : FExpr (ZMod p), (∀ x ∈ idsF e, env x = env' x) → evalF env e = evalF env' e
  | .value _, _ => by simp only [evalF]
  | .ident x, h => by
    simp only [evalF]
    rw [h x (by simp [idsF])]
  | .select es i, h => by
    simp only [evalF]
    rw [evFs es (fun x hx => h x (by simp only [idsF, List.mem_append]; tauto)), evU i (fun x hx => h x (by simp only [idsF, List.mem_append]; tauto))]
  | .add l r, h => by
    simp only [evalF]
    rw [evF l (fun x hx => h x (by simp only [idsF, List.mem_append]; tauto)), evF r (fun x hx => h x (by simp only [idsF, List.mem_append]; tauto))]
  | .sub l r, h => by
    simp only [evalF]
    rw [evF l (fun x hx => h x (by simp only [idsF, List.mem_append]; tauto)), evF r (fun x hx => h x (by simp only [idsF, List.mem_append]; tauto))]
  | .mult l r, h => by
    simp only [evalF]
    rw [evF l (fun x hx => h x (by simp only [idsF, List.mem_append]; tauto)), evF r (fun x hx => h x (by simp only [idsF, List.mem_append]; tauto))]
  | .div l r, h => by
    simp only [evalF]
    rw [evF l (fun x hx => h x (by simp only [idsF, List.mem_append]; tauto)), evF r (fun x hx => h x (by simp only [idsF, List.mem_append]; tauto))]
  | .pow l r, h => by
    simp only [evalF]
    rw [evF l (fun x hx => h x (by simp only [idsF, List.mem_append]; tauto)), evU r (fun x hx => h x (by simp only [idsF, List.mem_append]; tauto))]
  | .and _ _, _ => by simp only [evalF]
  | .or _ _, _ => by simp only [evalF]
  | .xor _ _, _ => by simp only [evalF]
  | .leftShift _ _, _ => by simp only [evalF]
  | .rightShift _ _, _ => by simp only [evalF]
  | .cond c t e, h => by
    simp only [evalF]
    rw [evB c (fun x hx => h x (by simp only [idsF, List.mem_append]; tauto)), evF t (fun x hx => h x (by simp only [idsF, List.mem_append]; tauto)), evF e (fun x hx => h x (by simp only [idsF, List.mem_append]; tauto))]
theorem evFs {env env' : ZEnv p} : ∀ e : List (FExpr (ZMod p)), (∀ x ∈ idsFs e, env x = env' x) → evalFs env e = evalFs env' e
  | [], _ => by simp only [evalFs]
  | e :: es, h => by
    simp only [evalFs]
    rw [evF e (fun x hx => h x (by simp only [idsFs, List.mem_append]; tauto)), evFs es (fun x hx => h x (by simp only [idsFs, List.mem_append]; tauto))]
theorem evB {env env' : ZEnv p} : ∀ e : BExpr (ZMod p), (∀ x ∈ idsB e, env x = env' x) → evalB env e = evalB env' e
  | .value _, _ => by simp only [evalB]
  | .ident x, h => by
    simp only [evalB]
    rw [h x (by simp [idsB])]
  | .select es i, h => by
    simp only [evalB]
    rw [evBs es (fun x hx => h x (by simp only [idsB, List.mem_append]; tauto)), evU i (fun x hx => h x (by simp only [idsB, List.mem_append]; tauto))]
  | .fieldLt l r, h => by
    simp only [evalB]
    rw [evF l (fun x hx => h x (by simp only [idsB, List.mem_append]; tauto)), evF r (fun x hx => h x (by simp only [idsB, List.mem_append]; tauto))]
  | .fieldLe l r, h => by
    simp only [evalB]
    rw [evF l (fun x hx => h x (by simp only [idsB, List.mem_append]; tauto)), evF r (fun x hx => h x (by simp only [idsB, List.mem_append]; tauto))]
  | .fieldEq l r, h => by
    simp only [evalB]
    rw [evF l (fun x hx => h x (by simp only [idsB, List.mem_append]; tauto)), evF r (fun x hx => h x (by simp only [idsB, List.mem_append]; tauto))]
  | .uintLt l r, h => by
    simp only [evalB]
    rw [evU l (fun x hx => h x (by simp only [idsB, List.mem_append]; tauto)), evU r (fun x hx => h x (by simp only [idsB, List.mem_append]; tauto))]
  | .uintLe l r, h => by
    simp only [evalB]
    rw [evU l (fun x hx => h x (by simp only [idsB, List.mem_append]; tauto)), evU r (fun x hx => h x (by simp only [idsB, List.mem_append]; tauto))]
  | .uintEq l r, h => by
    simp only [evalB]
    rw [evU l (fun x hx => h x (by simp only [idsB, List.mem_append]; tauto)), evU r (fun x hx => h x (by simp only [idsB, List.mem_append]; tauto))]
  | .boolEq l r, h => by
    simp only [evalB]
    rw [evB l (fun x hx => h x (by simp only [idsB, List.mem_append]; tauto)), evB r (fun x hx => h x (by simp only [idsB, List.mem_append]; tauto))]
  | .or l r, h => by
    simp only [evalB]
    rw [evB l (fun x hx => h x (by simp only [idsB, List.mem_append]; tauto)), evB r (fun x hx => h x (by simp only [idsB, List.mem_append]; tauto))]
  | .and l r, h => by
    simp only [evalB]
    rw [evB l (fun x hx => h x (by simp only [idsB, List.mem_append]; tauto)), evB r (fun x hx => h x (by simp only [idsB, List.mem_append]; tauto))]
  | .not e, h => by
    simp only [evalB]
    rw [evB e (fun x hx => h x (by simp only [idsB, List.mem_append]; tauto))]
  | .cond c t e, h => by
    simp only [evalB]
    rw [evB c (fun x hx => h x (by simp only [idsB, List.mem_append]; tauto)), evB t (fun x hx => h x (by simp only [idsB, List.mem_append]; tauto)), evB e (fun x hx => h x (by simp only [idsB, List.mem_append]; tauto))]
theorem evBs {env env' : ZEnv p} : ∀ e : List (BExpr (ZMod p)), (∀ x ∈ idsBs e, env x = env' x) → evalBs env e = evalBs env' e
  | [], _ => by simp only [evalBs]
  | e :: es, h => by
    simp only [evalBs]
    rw [evB e (fun x hx => h x (by simp only [idsBs, List.mem_append]; tauto)), evBs es (fun x hx => h x (by simp only [idsBs, List.mem_append]; tauto))]
theorem evU {env env' : ZEnv p} : ∀ e : UExpr (ZMod p), (∀ x ∈ idsU e, env x = env' x) → evalU env e = evalU env' e
  | .mk w _ i, h => by
    simp only [evalU]
    exact evUI w i (fun x hx => h x (by simpa only [idsU] using hx))
theorem evUs {env env' : ZEnv p} : ∀ e : List (UExpr (ZMod p)), (∀ x ∈ idsUs e, env x = env' x) → evalUs env e = evalUs env' e
  | [], _ => by simp only [evalUs]
  | e :: es, h => by
    simp only [evalUs]
    rw [evU e (fun x hx => h x (by simp only [idsUs, List.mem_append]; tauto)), evUs es (fun x hx => h x (by simp only [idsUs, List.mem_append]; tauto))]
theorem evUI {env env' : ZEnv p} : ∀ (w : ℕ) (e : UInner (ZMod p)), (∀ x ∈ idsUI e, env x = env' x) → evalUI env w e = evalUI env' w e
  | _, .value _, _ => by simp only [evalUI]
  | _, .ident x, h => by
    simp only [evalUI]
    rw [h x (by simp [idsUI])]
  | w, .select es i, h => by
    simp only [evalUI]
    rw [evUs es (fun x hx => h x (by simp only [idsUI, List.mem_append]; tauto)), evU i (fun x hx => h x (by simp only [idsUI, List.mem_append]; tauto))]
  | w, .add l r, h => by
    simp only [evalUI]
    rw [evU l (fun x hx => h x (by simp only [idsUI, List.mem_append]; tauto)), evU r (fun x hx => h x (by simp only [idsUI, List.mem_append]; tauto))]
  | w, .sub l r, h => by
    simp only [evalUI]
    rw [evU l (fun x hx => h x (by simp only [idsUI, List.mem_append]; tauto)), evU r (fun x hx => h x (by simp only [idsUI, List.mem_append]; tauto))]
  | w, .mult l r, h => by
    simp only [evalUI]
    rw [evU l (fun x hx => h x (by simp only [idsUI, List.mem_append]; tauto)), evU r (fun x hx => h x (by simp only [idsUI, List.mem_append]; tauto))]
  | w, .div l r, h => by
    simp only [evalUI]
    rw [evU l (fun x hx => h x (by simp only [idsUI, List.mem_append]; tauto)), evU r (fun x hx => h x (by simp only [idsUI, List.mem_append]; tauto))]
  | w, .rem l r, h => by
    simp only [evalUI]
    rw [evU l (fun x hx => h x (by simp only [idsUI, List.mem_append]; tauto)), evU r (fun x hx => h x (by simp only [idsUI, List.mem_append]; tauto))]
  | w, .xor l r, h => by
    simp only [evalUI]
    rw [evU l (fun x hx => h x (by simp only [idsUI, List.mem_append]; tauto)), evU r (fun x hx => h x (by simp only [idsUI, List.mem_append]; tauto))]
  | w, .and l r, h => by
    simp only [evalUI]
    rw [evU l (fun x hx => h x (by simp only [idsUI, List.mem_append]; tauto)), evU r (fun x hx => h x (by simp only [idsUI, List.mem_append]; tauto))]
  | w, .or l r, h => by
    simp only [evalUI]
    rw [evU l (fun x hx => h x (by simp only [idsUI, List.mem_append]; tauto)), evU r (fun x hx => h x (by simp only [idsUI, List.mem_append]; tauto))]
  | w, .leftShift l r, h => by
    simp only [evalUI]
    rw [evU l (fun x hx => h x (by simp only [idsUI, List.mem_append]; tauto)), evU r (fun x hx => h x (by simp only [idsUI, List.mem_append]; tauto))]
  | w, .rightShift l r, h => by
    simp only [evalUI]
    rw [evU l (fun x hx => h x (by simp only [idsUI, List.mem_append]; tauto)), evU r (fun x hx => h x (by simp only [idsUI, List.mem_append]; tauto))]
  | w, .not e, h => by
    simp only [evalUI]
    rw [evU e (fun x hx => h x (by simp only [idsUI, List.mem_append]; tauto))]
  | w, .cond c t e, h => by
    simp only [evalUI]
    rw [evB c (fun x hx => h x (by simp only [idsUI, List.mem_append]; tauto)), evU t (fun x hx => h x (by simp only [idsUI, List.mem_append]; tauto)), evU e (fun x hx => h x (by simp only [idsUI, List.mem_append]; tauto))]
end

theorem evZ {env env' : ZEnv p} (e : ZExpr (ZMod p)) (h : ∀ x ∈ idsZ e, env x = env' x) : evalZ env e = evalZ env' e := by
  cases e with
  | field e => simp only [evalZ]; rw [evF e h]
  | bool e => simp only [evalZ]; rw [evB e h]
  | uint e => simp only [evalZ]; rw [evU e h]

theorem evZs {env env' : ZEnv p} (es : List (ZExpr (ZMod p))) (h : ∀ x ∈ idsZs es, env x = env' x) :
    evalZs env es = evalZs env' es := by
  induction es with
  | nil => rfl
  | cons e es ih =>
    simp only [evalZs]
    rw [evZ e (fun x hx => h x (by simp only [idsZs, List.mem_append]; tauto)),
      ih (fun x hx => h x (by simp only [idsZs, List.mem_append]; tauto))]

theorem idsB_conjunct {c e : BExpr (ZMod p)} (h : Conjunct c e) : ∀ x ∈ idsB c, x ∈ idsB e := by
  induction h with
  | self => exact fun _ h => h
  | left _ ih => intro x hx; simp only [idsB, List.mem_append]; exact Or.inl (ih x hx)
  | right _ ih => intro x hx; simp only [idsB, List.mem_append]; exact Or.inr (ih x hx)

/-! ### Types -/

mutual
theorem wtF {Γ Δ : TCtx} : ∀ e : FExpr (ZMod p), WtF Γ e → (∀ x ∈ idsF e, Δ x = Γ x) → WtF Δ e
  | .value _, _, _ => trivial
  | .ident x, h, hx => (hx x (by simp [idsF])).trans h
  | .select es i, h, hx => ⟨wtFs es h.1 (fun x h' => hx x (by simp only [idsF, List.mem_append]; tauto)), h.2.1, wtU i h.2.2.1 (fun x h' => hx x (by simp only [idsF, List.mem_append]; tauto)), h.2.2.2⟩
  | .add l r, h, hx => ⟨wtF l h.1 (fun x h' => hx x (by simp only [idsF, List.mem_append]; tauto)), wtF r h.2 (fun x h' => hx x (by simp only [idsF, List.mem_append]; tauto))⟩
  | .sub l r, h, hx => ⟨wtF l h.1 (fun x h' => hx x (by simp only [idsF, List.mem_append]; tauto)), wtF r h.2 (fun x h' => hx x (by simp only [idsF, List.mem_append]; tauto))⟩
  | .mult l r, h, hx => ⟨wtF l h.1 (fun x h' => hx x (by simp only [idsF, List.mem_append]; tauto)), wtF r h.2 (fun x h' => hx x (by simp only [idsF, List.mem_append]; tauto))⟩
  | .div l r, h, hx => ⟨wtF l h.1 (fun x h' => hx x (by simp only [idsF, List.mem_append]; tauto)), wtF r h.2 (fun x h' => hx x (by simp only [idsF, List.mem_append]; tauto))⟩
  | .pow l r, h, hx => ⟨wtF l h.1 (fun x h' => hx x (by simp only [idsF, List.mem_append]; tauto)), h.2⟩
  | .and _ _, h, _ => h.elim
  | .or _ _, h, _ => h.elim
  | .xor _ _, h, _ => h.elim
  | .leftShift _ _, h, _ => h.elim
  | .rightShift _ _, h, _ => h.elim
  | .cond c t e, h, hx => ⟨wtB c h.1 (fun x h' => hx x (by simp only [idsF, List.mem_append]; tauto)), wtF t h.2.1 (fun x h' => hx x (by simp only [idsF, List.mem_append]; tauto)), wtF e h.2.2 (fun x h' => hx x (by simp only [idsF, List.mem_append]; tauto))⟩
theorem wtFs {Γ Δ : TCtx} : ∀ e : List (FExpr (ZMod p)), WtFs Γ e → (∀ x ∈ idsFs e, Δ x = Γ x) → WtFs Δ e
  | [], _, _ => trivial
  | e :: es, h, hx => ⟨wtF e h.1 (fun x h' => hx x (by simp only [idsFs, List.mem_append]; tauto)), wtFs es h.2 (fun x h' => hx x (by simp only [idsFs, List.mem_append]; tauto))⟩
theorem wtB {Γ Δ : TCtx} : ∀ e : BExpr (ZMod p), WtB Γ e → (∀ x ∈ idsB e, Δ x = Γ x) → WtB Δ e
  | .value _, _, _ => trivial
  | .ident x, h, hx => (hx x (by simp [idsB])).trans h
  | .select es i, h, hx => ⟨wtBs es h.1 (fun x h' => hx x (by simp only [idsB, List.mem_append]; tauto)), h.2.1, wtU i h.2.2.1 (fun x h' => hx x (by simp only [idsB, List.mem_append]; tauto)), h.2.2.2⟩
  | .fieldLt l r, h, hx => ⟨wtF l h.1 (fun x h' => hx x (by simp only [idsB, List.mem_append]; tauto)), wtF r h.2 (fun x h' => hx x (by simp only [idsB, List.mem_append]; tauto))⟩
  | .fieldLe l r, h, hx => ⟨wtF l h.1 (fun x h' => hx x (by simp only [idsB, List.mem_append]; tauto)), wtF r h.2 (fun x h' => hx x (by simp only [idsB, List.mem_append]; tauto))⟩
  | .fieldEq l r, h, hx => ⟨wtF l h.1 (fun x h' => hx x (by simp only [idsB, List.mem_append]; tauto)), wtF r h.2 (fun x h' => hx x (by simp only [idsB, List.mem_append]; tauto))⟩
  | .uintLt l r, h, hx => ⟨wtU l h.1 (fun x h' => hx x (by simp only [idsB, List.mem_append]; tauto)), wtU r h.2.1 (fun x h' => hx x (by simp only [idsB, List.mem_append]; tauto)), h.2.2⟩
  | .uintLe l r, h, hx => ⟨wtU l h.1 (fun x h' => hx x (by simp only [idsB, List.mem_append]; tauto)), wtU r h.2.1 (fun x h' => hx x (by simp only [idsB, List.mem_append]; tauto)), h.2.2⟩
  | .uintEq l r, h, hx => ⟨wtU l h.1 (fun x h' => hx x (by simp only [idsB, List.mem_append]; tauto)), wtU r h.2.1 (fun x h' => hx x (by simp only [idsB, List.mem_append]; tauto)), h.2.2⟩
  | .boolEq l r, h, hx => ⟨wtB l h.1 (fun x h' => hx x (by simp only [idsB, List.mem_append]; tauto)), wtB r h.2 (fun x h' => hx x (by simp only [idsB, List.mem_append]; tauto))⟩
  | .or l r, h, hx => ⟨wtB l h.1 (fun x h' => hx x (by simp only [idsB, List.mem_append]; tauto)), wtB r h.2 (fun x h' => hx x (by simp only [idsB, List.mem_append]; tauto))⟩
  | .and l r, h, hx => ⟨wtB l h.1 (fun x h' => hx x (by simp only [idsB, List.mem_append]; tauto)), wtB r h.2 (fun x h' => hx x (by simp only [idsB, List.mem_append]; tauto))⟩
  | .not e, h, hx => wtB e h (fun x h' => hx x (by simp only [idsB, List.mem_append]; tauto))
  | .cond c t e, h, hx => ⟨wtB c h.1 (fun x h' => hx x (by simp only [idsB, List.mem_append]; tauto)), wtB t h.2.1 (fun x h' => hx x (by simp only [idsB, List.mem_append]; tauto)), wtB e h.2.2 (fun x h' => hx x (by simp only [idsB, List.mem_append]; tauto))⟩
theorem wtBs {Γ Δ : TCtx} : ∀ e : List (BExpr (ZMod p)), WtBs Γ e → (∀ x ∈ idsBs e, Δ x = Γ x) → WtBs Δ e
  | [], _, _ => trivial
  | e :: es, h, hx => ⟨wtB e h.1 (fun x h' => hx x (by simp only [idsBs, List.mem_append]; tauto)), wtBs es h.2 (fun x h' => hx x (by simp only [idsBs, List.mem_append]; tauto))⟩
theorem wtU {Γ Δ : TCtx} : ∀ e : UExpr (ZMod p), WtU Γ e → (∀ x ∈ idsU e, Δ x = Γ x) → WtU Δ e
  | .mk w _ i, h, hx => ⟨h.1, h.2.1, wtUI w i h.2.2 (fun x h' => hx x (by simpa only [idsU] using h'))⟩
theorem wtUs {Γ Δ : TCtx} : ∀ (w : ℕ) (e : List (UExpr (ZMod p))), WtUs Γ w e → (∀ x ∈ idsUs e, Δ x = Γ x) → WtUs Δ w e
  | _, [], _, _ => trivial
  | w, e :: es, h, hx => ⟨⟨wtU e h.1.1 (fun x h' => hx x (by simp only [idsUs, List.mem_append]; tauto)), h.1.2⟩, wtUs w es h.2 (fun x h' => hx x (by simp only [idsUs, List.mem_append]; tauto))⟩
theorem wtUI {Γ Δ : TCtx} : ∀ (w : ℕ) (e : UInner (ZMod p)), WtUI Γ w e → (∀ x ∈ idsUI e, Δ x = Γ x) → WtUI Δ w e
  | _, .value _, h, _ => h
  | _, .ident x, h, hx => (hx x (by simp [idsUI])).trans h
  | w, .select es i, h, hx => ⟨wtUs w es h.1 (fun x h' => hx x (by simp only [idsUI, List.mem_append]; tauto)), h.2.1, h.2.2.1, wtU i h.2.2.2.1 (fun x h' => hx x (by simp only [idsUI, List.mem_append]; tauto)), h.2.2.2.2⟩
  | w, .add l r, h, hx => ⟨wtU l h.1 (fun x h' => hx x (by simp only [idsUI, List.mem_append]; tauto)), wtU r h.2.1 (fun x h' => hx x (by simp only [idsUI, List.mem_append]; tauto)), h.2.2⟩
  | w, .sub l r, h, hx => ⟨wtU l h.1 (fun x h' => hx x (by simp only [idsUI, List.mem_append]; tauto)), wtU r h.2.1 (fun x h' => hx x (by simp only [idsUI, List.mem_append]; tauto)), h.2.2⟩
  | w, .mult l r, h, hx => ⟨wtU l h.1 (fun x h' => hx x (by simp only [idsUI, List.mem_append]; tauto)), wtU r h.2.1 (fun x h' => hx x (by simp only [idsUI, List.mem_append]; tauto)), h.2.2⟩
  | w, .div l r, h, hx => ⟨wtU l h.1 (fun x h' => hx x (by simp only [idsUI, List.mem_append]; tauto)), wtU r h.2.1 (fun x h' => hx x (by simp only [idsUI, List.mem_append]; tauto)), h.2.2⟩
  | w, .rem l r, h, hx => ⟨wtU l h.1 (fun x h' => hx x (by simp only [idsUI, List.mem_append]; tauto)), wtU r h.2.1 (fun x h' => hx x (by simp only [idsUI, List.mem_append]; tauto)), h.2.2⟩
  | w, .xor l r, h, hx => ⟨wtU l h.1 (fun x h' => hx x (by simp only [idsUI, List.mem_append]; tauto)), wtU r h.2.1 (fun x h' => hx x (by simp only [idsUI, List.mem_append]; tauto)), h.2.2⟩
  | w, .and l r, h, hx => ⟨wtU l h.1 (fun x h' => hx x (by simp only [idsUI, List.mem_append]; tauto)), wtU r h.2.1 (fun x h' => hx x (by simp only [idsUI, List.mem_append]; tauto)), h.2.2⟩
  | w, .or l r, h, hx => ⟨wtU l h.1 (fun x h' => hx x (by simp only [idsUI, List.mem_append]; tauto)), wtU r h.2.1 (fun x h' => hx x (by simp only [idsUI, List.mem_append]; tauto)), h.2.2⟩
  | w, .leftShift l r, h, hx => ⟨wtU l h.1 (fun x h' => hx x (by simp only [idsUI, List.mem_append]; tauto)), h.2⟩
  | w, .rightShift l r, h, hx => ⟨wtU l h.1 (fun x h' => hx x (by simp only [idsUI, List.mem_append]; tauto)), h.2⟩
  | w, .not e, h, hx => ⟨wtU e h.1 (fun x h' => hx x (by simp only [idsUI, List.mem_append]; tauto)), h.2⟩
  | w, .cond c t e, h, hx => ⟨wtB c h.1 (fun x h' => hx x (by simp only [idsUI, List.mem_append]; tauto)), wtU t h.2.1 (fun x h' => hx x (by simp only [idsUI, List.mem_append]; tauto)), wtU e h.2.2.1 (fun x h' => hx x (by simp only [idsUI, List.mem_append]; tauto)), h.2.2.2⟩
end

theorem wtZ {Γ Δ : TCtx} (e : ZExpr (ZMod p)) (h : WtZ Γ e) (hx : ∀ x ∈ idsZ e, Δ x = Γ x) : WtZ Δ e := by
  cases e with
  | field e => exact wtF e h hx
  | bool e => exact wtB e h hx
  | uint e => exact wtU e h hx

/-! ### Ranges -/

mutual
theorem fuU {V V' : FullVars} : ∀ e : UExpr (ZMod p), (∀ x ∈ idsU e, ∀ w, V x w = V' x w) → fullU V e = fullU V' e
  | .mk w _ i, h => by
    simp only [fullU]
    exact fuUI w i (fun x hx => h x (by simpa only [idsU] using hx))
theorem fuUs {V V' : FullVars} : ∀ e : List (UExpr (ZMod p)), (∀ x ∈ idsUs e, ∀ w, V x w = V' x w) → fullUs V e = fullUs V' e
  | [], _ => by simp only [fullUs]
  | e :: es, h => by
    simp only [fullUs]
    rw [fuU e (fun x hx => h x (by simp only [idsUs, List.mem_append]; tauto)), fuUs es (fun x hx => h x (by simp only [idsUs, List.mem_append]; tauto))]
theorem fuUI {V V' : FullVars} : ∀ (w : ℕ) (e : UInner (ZMod p)), (∀ x ∈ idsUI e, ∀ w, V x w = V' x w) → fullUI V w e = fullUI V' w e
  | w, .ident x, h => by simp only [fullUI]; exact h x (by simp [idsUI]) w
  | w, .select es i, h => by
    simp only [fullUI]
    exact fuUs es (fun x hx => h x (by simp only [idsUI, List.mem_append]; tauto))
  | w, .cond c t e, h => by
    simp only [fullUI]
    rw [fuU t (fun x hx => h x (by simp only [idsUI, List.mem_append]; tauto)), fuU e (fun x hx => h x (by simp only [idsUI, List.mem_append]; tauto))]
  | _, .value _, _ => by simp only [fullUI]
  | _, .add _ _, _ => by simp only [fullUI]
  | _, .sub _ _, _ => by simp only [fullUI]
  | _, .mult _ _, _ => by simp only [fullUI]
  | _, .div _ _, _ => by simp only [fullUI]
  | _, .rem _ _, _ => by simp only [fullUI]
  | _, .xor _ _, _ => by simp only [fullUI]
  | _, .and _ _, _ => by simp only [fullUI]
  | _, .or _ _, _ => by simp only [fullUI]
  | _, .leftShift _ _, _ => by simp only [fullUI]
  | _, .rightShift _ _, _ => by simp only [fullUI]
  | _, .not _, _ => by simp only [fullUI]
end

theorem beU {V V' : FullVars} (e : UExpr (ZMod p)) (h : ∀ x ∈ idsU e, ∀ w, V x w = V' x w) : belowU V e = belowU V' e := by
  simp only [belowU, fuU e h]

mutual
theorem plF {V V' : FullVars} : ∀ e : FExpr (ZMod p), (∀ x ∈ idsF e, ∀ w, V x w = V' x w) → plainF V e = plainF V' e
  | .value _, _ => by simp only [plainF]
  | .ident x, h => by simp only [plainF]
  | .select es i, h => by
    simp only [plainF]
    rw [plFs es (fun x hx => h x (by simp only [idsF, List.mem_append]; tauto)), plU i (fun x hx => h x (by simp only [idsF, List.mem_append]; tauto))]
  | .add l r, h => by
    simp only [plainF]
    rw [plF l (fun x hx => h x (by simp only [idsF, List.mem_append]; tauto)), plF r (fun x hx => h x (by simp only [idsF, List.mem_append]; tauto))]
  | .sub l r, h => by
    simp only [plainF]
    rw [plF l (fun x hx => h x (by simp only [idsF, List.mem_append]; tauto)), plF r (fun x hx => h x (by simp only [idsF, List.mem_append]; tauto))]
  | .mult l r, h => by
    simp only [plainF]
    rw [plF l (fun x hx => h x (by simp only [idsF, List.mem_append]; tauto)), plF r (fun x hx => h x (by simp only [idsF, List.mem_append]; tauto))]
  | .div l r, h => by
    simp only [plainF]
    rw [plF l (fun x hx => h x (by simp only [idsF, List.mem_append]; tauto)), plF r (fun x hx => h x (by simp only [idsF, List.mem_append]; tauto))]
  | .and l r, h => by
    simp only [plainF]
    rw [plF l (fun x hx => h x (by simp only [idsF, List.mem_append]; tauto)), plF r (fun x hx => h x (by simp only [idsF, List.mem_append]; tauto))]
  | .or l r, h => by
    simp only [plainF]
    rw [plF l (fun x hx => h x (by simp only [idsF, List.mem_append]; tauto)), plF r (fun x hx => h x (by simp only [idsF, List.mem_append]; tauto))]
  | .xor l r, h => by
    simp only [plainF]
    rw [plF l (fun x hx => h x (by simp only [idsF, List.mem_append]; tauto)), plF r (fun x hx => h x (by simp only [idsF, List.mem_append]; tauto))]
  | .pow l r, h => by
    simp only [plainF]
    rw [plF l (fun x hx => h x (by simp only [idsF, List.mem_append]; tauto))]
  | .leftShift l r, h => by
    simp only [plainF]
    rw [plF l (fun x hx => h x (by simp only [idsF, List.mem_append]; tauto))]
  | .rightShift l r, h => by
    simp only [plainF]
    rw [plF l (fun x hx => h x (by simp only [idsF, List.mem_append]; tauto))]
  | .cond c t e, h => by
    simp only [plainF]
    rw [plB c (fun x hx => h x (by simp only [idsF, List.mem_append]; tauto)), plF t (fun x hx => h x (by simp only [idsF, List.mem_append]; tauto)), plF e (fun x hx => h x (by simp only [idsF, List.mem_append]; tauto))]
theorem plFs {V V' : FullVars} : ∀ e : List (FExpr (ZMod p)), (∀ x ∈ idsFs e, ∀ w, V x w = V' x w) → plainFs V e = plainFs V' e
  | [], _ => by simp only [plainFs]
  | e :: es, h => by
    simp only [plainFs]
    rw [plF e (fun x hx => h x (by simp only [idsFs, List.mem_append]; tauto)), plFs es (fun x hx => h x (by simp only [idsFs, List.mem_append]; tauto))]
theorem plB {V V' : FullVars} : ∀ e : BExpr (ZMod p), (∀ x ∈ idsB e, ∀ w, V x w = V' x w) → plainB V e = plainB V' e
  | .value _, _ => by simp only [plainB]
  | .ident x, h => by simp only [plainB]
  | .select es i, h => by
    simp only [plainB]
    rw [plBs es (fun x hx => h x (by simp only [idsB, List.mem_append]; tauto)), plU i (fun x hx => h x (by simp only [idsB, List.mem_append]; tauto))]
  | .fieldLt l r, h => by
    simp only [plainB]
    rw [plF l (fun x hx => h x (by simp only [idsB, List.mem_append]; tauto)), plF r (fun x hx => h x (by simp only [idsB, List.mem_append]; tauto))]
  | .fieldLe l r, h => by
    simp only [plainB]
    rw [plF l (fun x hx => h x (by simp only [idsB, List.mem_append]; tauto)), plF r (fun x hx => h x (by simp only [idsB, List.mem_append]; tauto))]
  | .fieldEq l r, h => by
    simp only [plainB]
    rw [plF l (fun x hx => h x (by simp only [idsB, List.mem_append]; tauto)), plF r (fun x hx => h x (by simp only [idsB, List.mem_append]; tauto))]
  | .uintLt l r, h => by
    simp only [plainB]
    rw [plU l (fun x hx => h x (by simp only [idsB, List.mem_append]; tauto)), plU r (fun x hx => h x (by simp only [idsB, List.mem_append]; tauto))]
  | .uintLe l r, h => by
    simp only [plainB]
    rw [plU l (fun x hx => h x (by simp only [idsB, List.mem_append]; tauto)), plU r (fun x hx => h x (by simp only [idsB, List.mem_append]; tauto))]
  | .uintEq l r, h => by
    simp only [plainB]
    rw [plU l (fun x hx => h x (by simp only [idsB, List.mem_append]; tauto)), plU r (fun x hx => h x (by simp only [idsB, List.mem_append]; tauto))]
  | .boolEq l r, h => by
    simp only [plainB]
    rw [plB l (fun x hx => h x (by simp only [idsB, List.mem_append]; tauto)), plB r (fun x hx => h x (by simp only [idsB, List.mem_append]; tauto))]
  | .or l r, h => by
    simp only [plainB]
    rw [plB l (fun x hx => h x (by simp only [idsB, List.mem_append]; tauto)), plB r (fun x hx => h x (by simp only [idsB, List.mem_append]; tauto))]
  | .and l r, h => by
    simp only [plainB]
    rw [plB l (fun x hx => h x (by simp only [idsB, List.mem_append]; tauto)), plB r (fun x hx => h x (by simp only [idsB, List.mem_append]; tauto))]
  | .not e, h => by
    simp only [plainB]
    rw [plB e (fun x hx => h x (by simp only [idsB, List.mem_append]; tauto))]
  | .cond c t e, h => by
    simp only [plainB]
    rw [plB c (fun x hx => h x (by simp only [idsB, List.mem_append]; tauto)), plB t (fun x hx => h x (by simp only [idsB, List.mem_append]; tauto)), plB e (fun x hx => h x (by simp only [idsB, List.mem_append]; tauto))]
theorem plBs {V V' : FullVars} : ∀ e : List (BExpr (ZMod p)), (∀ x ∈ idsBs e, ∀ w, V x w = V' x w) → plainBs V e = plainBs V' e
  | [], _ => by simp only [plainBs]
  | e :: es, h => by
    simp only [plainBs]
    rw [plB e (fun x hx => h x (by simp only [idsBs, List.mem_append]; tauto)), plBs es (fun x hx => h x (by simp only [idsBs, List.mem_append]; tauto))]
theorem plU {V V' : FullVars} : ∀ e : UExpr (ZMod p), (∀ x ∈ idsU e, ∀ w, V x w = V' x w) → plainU V e = plainU V' e
  | .mk w _ i, h => by
    simp only [plainU]
    exact plUI i (fun x hx => h x (by simpa only [idsU] using hx))
theorem plUs {V V' : FullVars} : ∀ e : List (UExpr (ZMod p)), (∀ x ∈ idsUs e, ∀ w, V x w = V' x w) → plainUs V e = plainUs V' e
  | [], _ => by simp only [plainUs]
  | e :: es, h => by
    simp only [plainUs]
    rw [plU e (fun x hx => h x (by simp only [idsUs, List.mem_append]; tauto)), plUs es (fun x hx => h x (by simp only [idsUs, List.mem_append]; tauto))]
theorem plUI {V V' : FullVars} : ∀ e : UInner (ZMod p), (∀ x ∈ idsUI e, ∀ w, V x w = V' x w) → plainUI V e = plainUI V' e
  | .value _, _ => by simp only [plainUI]
  | .ident x, h => by simp only [plainUI]
  | .select es i, h => by
    simp only [plainUI]
    rw [plUs es (fun x hx => h x (by simp only [idsUI, List.mem_append]; tauto)), plU i (fun x hx => h x (by simp only [idsUI, List.mem_append]; tauto))]
  | .add l r, h => by
    simp only [plainUI]
    rw [plU l (fun x hx => h x (by simp only [idsUI, List.mem_append]; tauto)), plU r (fun x hx => h x (by simp only [idsUI, List.mem_append]; tauto))]
  | .mult l r, h => by
    simp only [plainUI]
    rw [plU l (fun x hx => h x (by simp only [idsUI, List.mem_append]; tauto)), plU r (fun x hx => h x (by simp only [idsUI, List.mem_append]; tauto))]
  | .div l r, h => by
    simp only [plainUI]
    rw [plU l (fun x hx => h x (by simp only [idsUI, List.mem_append]; tauto)), plU r (fun x hx => h x (by simp only [idsUI, List.mem_append]; tauto))]
  | .rem l r, h => by
    simp only [plainUI]
    rw [plU l (fun x hx => h x (by simp only [idsUI, List.mem_append]; tauto)), plU r (fun x hx => h x (by simp only [idsUI, List.mem_append]; tauto))]
  | .xor l r, h => by
    simp only [plainUI]
    rw [plU l (fun x hx => h x (by simp only [idsUI, List.mem_append]; tauto)), plU r (fun x hx => h x (by simp only [idsUI, List.mem_append]; tauto))]
  | .and l r, h => by
    simp only [plainUI]
    rw [plU l (fun x hx => h x (by simp only [idsUI, List.mem_append]; tauto)), plU r (fun x hx => h x (by simp only [idsUI, List.mem_append]; tauto))]
  | .or l r, h => by
    simp only [plainUI]
    rw [plU l (fun x hx => h x (by simp only [idsUI, List.mem_append]; tauto)), plU r (fun x hx => h x (by simp only [idsUI, List.mem_append]; tauto))]
  | .sub l r, h => by
    simp only [plainUI]
    rw [plU l (fun x hx => h x (by simp only [idsUI, List.mem_append]; tauto)), plU r (fun x hx => h x (by simp only [idsUI, List.mem_append]; tauto)), beU r (fun x hx => h x (by simp only [idsUI, List.mem_append]; tauto))]
  | .leftShift l r, h => by
    simp only [plainUI]
    rw [plU l (fun x hx => h x (by simp only [idsUI, List.mem_append]; tauto)), fuU l (fun x hx => h x (by simp only [idsUI, List.mem_append]; tauto))]
  | .rightShift l r, h => by
    simp only [plainUI]
    rw [plU l (fun x hx => h x (by simp only [idsUI, List.mem_append]; tauto)), beU l (fun x hx => h x (by simp only [idsUI, List.mem_append]; tauto))]
  | .not e, h => by
    simp only [plainUI]
    rw [plU e (fun x hx => h x (by simp only [idsUI, List.mem_append]; tauto))]
  | .cond c t e, h => by
    simp only [plainUI]
    rw [plB c (fun x hx => h x (by simp only [idsUI, List.mem_append]; tauto)), plU t (fun x hx => h x (by simp only [idsUI, List.mem_append]; tauto)), plU e (fun x hx => h x (by simp only [idsUI, List.mem_append]; tauto))]
end

theorem plZ {V V' : FullVars} (e : ZExpr (ZMod p)) (h : ∀ x ∈ idsZ e, ∀ w, V x w = V' x w) : plainZ V e = plainZ V' e := by
  cases e with
  | field e => exact plF e h
  | bool e => exact plB e h
  | uint e => exact plU e h

end Zok.Dce
