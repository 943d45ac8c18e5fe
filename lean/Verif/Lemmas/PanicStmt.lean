import Verif.Lemmas.PanicExec
import Verif.Spec.Panics

/-
Lemmas on the extraction of panics: the guards of expressions and statements.
-/

set_option linter.unusedSectionVars false
set_option linter.unusedSimpArgs false
set_option linter.unusedVariables false

namespace Zok.Px
variable {p : ℕ} {Z : Type} [Fact p.Prime] {O : Oracle p Z} {σ σ' : ZState p}

theorem isConst_of_noPowZero {e : FExpr (ZMod p)} (h : e.NoPowZero) : e.isConst = isValueF e := by
  cases e with
  | pow b n =>
    obtain ⟨w, m, i⟩ := n
    cases i with
    | value k =>
      cases k with
      | zero => exact absurd rfl h.2.2
      | succ k => rfl
    | _ => rfl
  | _ => rfl

/-- Simplify the side conditions. -/
macro "nodiv" : tactic => `(tactic| (intros; first | exact selectVal_noDiv _ _ | (split <;> simp; done) | (simp; done)))

mutual
theorem giF (hp : 2 < p) : ∀ e : FExpr (ZMod p), e.NoPowZero → GI O σ (gF Z e) (evalF σ.env e)
  | .value _, _ => GI.nil (by simp [evalF])
  | .ident x, _ => GI.nil (by simp only [evalF]; split <;> (try split) <;> simp)
  | .select es i, h => by
    rw [gF_select]
    simp only [evalF]
    exact (giU hp i h.2).bindSwap (giFs hp es h.1) (by nodiv)
  | .add l r, h => by
    rw [gF_add]
    simp only [evalF]
    exact (giF hp l h.1).bind (giF hp r h.2) (by nodiv)
  | .sub l r, h => by
    rw [gF_sub]
    simp only [evalF]
    exact (giF hp l h.1).bind (giF hp r h.2) (by nodiv)
  | .mult l r, h => by
    rw [gF_mult]
    simp only [evalF]
    exact (giF hp l h.1).bind (giF hp r h.2) (by nodiv)
  | .div l r, h => by
    rw [gF_div]
    exact (giF hp l h.1).div (giF hp r h.2)
  | .pow l r, h => by
    rw [gF_pow]
    simp only [evalF]
    exact (giF hp l h.1).bind (giU hp r h.2.1) (by nodiv)
  | .and l r, h => by
    rw [gF_and]
    simp only [evalF]
    exact (giF hp l h.1).append (giF hp r h.2) (fun v hv => by cases hv) (fun hv => by cases hv)
  | .or l r, h => by
    rw [gF_or]
    simp only [evalF]
    exact (giF hp l h.1).append (giF hp r h.2) (fun v hv => by cases hv) (fun hv => by cases hv)
  | .xor l r, h => by
    rw [gF_xor]
    simp only [evalF]
    exact (giF hp l h.1).append (giF hp r h.2) (fun v hv => by cases hv) (fun hv => by cases hv)
  | .leftShift l r, h => by
    rw [gF_leftShift]
    simp only [evalF]
    exact (giF hp l h.1).append (giU hp r h.2) (fun v hv => by cases hv) (fun hv => by cases hv)
  | .rightShift l r, h => by
    rw [gF_rightShift]
    simp only [evalF]
    exact (giF hp l h.1).append (giU hp r h.2) (fun v hv => by cases hv) (fun hv => by cases hv)
  | .cond c t e, h => by
    rw [gF_cond]
    simp only [evalF]
    exact (giB hp c h.1).cond (giF hp t h.2.1) (giF hp e h.2.2)
theorem giFs (hp : 2 < p) : ∀ es : List (FExpr (ZMod p)), FExpr.NoPowZeroL es → GI O σ (gFs Z es) (evalFs σ.env es)
  | [], _ => GI.nil (by simp [evalFs])
  | e :: es, h => by
    rw [gFs_cons]
    simp only [evalFs]
    exact (giF hp e h.1).bind (giFs hp es h.2) (by nodiv)
theorem giB (hp : 2 < p) : ∀ e : BExpr (ZMod p), e.NoPowZero → GI O σ (gB Z e) (evalB σ.env e)
  | .value _, _ => GI.nil (by simp [evalB])
  | .ident x, _ => GI.nil (by simp only [evalB]; split <;> (try split) <;> simp)
  | .select es i, h => by
    rw [gB_select]
    simp only [evalB]
    exact (giU hp i h.2).bindSwap (giBs hp es h.1) (by nodiv)
  | .fieldLe l r, h => by
    rw [gB_fieldLe]
    simp only [evalB]
    exact (giF hp l h.1).bind (giF hp r h.2) (by nodiv)
  | .fieldEq l r, h => by
    rw [gB_fieldEq]
    simp only [evalB]
    exact (giF hp l h.1).bind (giF hp r h.2) (by nodiv)
  | .uintLt l r, h => by
    rw [gB_uintLt]
    simp only [evalB]
    exact (giU hp l h.1).bind (giU hp r h.2) (by nodiv)
  | .uintLe l r, h => by
    rw [gB_uintLe]
    simp only [evalB]
    exact (giU hp l h.1).bind (giU hp r h.2) (by nodiv)
  | .uintEq l r, h => by
    rw [gB_uintEq]
    simp only [evalB]
    exact (giU hp l h.1).bind (giU hp r h.2) (by nodiv)
  | .boolEq l r, h => by
    rw [gB_boolEq]
    simp only [evalB]
    exact (giB hp l h.1).bind (giB hp r h.2) (by nodiv)
  | .or l r, h => by
    rw [gB_or]
    simp only [evalB]
    exact (giB hp l h.1).bind (giB hp r h.2) (by nodiv)
  | .and l r, h => by
    rw [gB_and]
    simp only [evalB]
    exact (giB hp l h.1).bind (giB hp r h.2) (by nodiv)
  | .fieldLt l r, h => by
    have hl := giF hp l h.1
    have hr := giF hp r h.2
    rw [gB_lt]
    split
    · simp only [evalB]
      exact hl.bind hr (by nodiv)
    · rename_i hc
      refine hl.lt hp hr ?_
      rw [isConst_of_noPowZero h.1, isConst_of_noPowZero h.2]
      simpa using hc
  | .not e, h => by
    rw [gB_not]
    simp only [evalB]
    exact (giB hp e h).map (by nodiv)
  | .cond c t e, h => by
    rw [gB_cond]
    simp only [evalB]
    exact (giB hp c h.1).cond (giB hp t h.2.1) (giB hp e h.2.2)
theorem giBs (hp : 2 < p) : ∀ es : List (BExpr (ZMod p)), BExpr.NoPowZeroL es → GI O σ (gBs Z es) (evalBs σ.env es)
  | [], _ => GI.nil (by simp [evalBs])
  | e :: es, h => by
    rw [gBs_cons]
    simp only [evalBs]
    exact (giB hp e h.1).bind (giBs hp es h.2) (by nodiv)
theorem giU (hp : 2 < p) : ∀ e : UExpr (ZMod p), e.NoPowZero → GI O σ (gU Z e) (evalU σ.env e)
  | .mk w m i, h => by
    have := giUI w hp i h
    simp only [evalU]
    exact this
theorem giUs (hp : 2 < p) : ∀ es : List (UExpr (ZMod p)), UExpr.NoPowZeroL es → GI O σ (gUs Z es) (evalUs σ.env es)
  | [], _ => GI.nil (by simp [evalUs])
  | e :: es, h => by
    rw [gUs_cons]
    simp only [evalUs]
    exact (giU hp e h.1).bind (giUs hp es h.2) (by nodiv)
theorem giUI (w : ℕ) (hp : 2 < p) : ∀ e : UInner (ZMod p), e.NoPowZero → GI O σ (gUI Z w e) (evalUI σ.env w e)
  | .value _, _ => GI.nil (by simp [evalUI])
  | .ident x, _ => GI.nil (by simp only [evalUI]; split <;> (try split) <;> simp)
  | .select es i, h => by
    rw [gUI_select]
    simp only [evalUI]
    exact (giU hp i h.2).bindSwap (giUs hp es h.1) (by nodiv)
  | .add l r, h => by
    rw [gUI_add]
    simp only [evalUI]
    exact (giU hp l h.1).bind (giU hp r h.2) (by nodiv)
  | .sub l r, h => by
    rw [gUI_sub]
    simp only [evalUI]
    exact (giU hp l h.1).bind (giU hp r h.2) (by nodiv)
  | .mult l r, h => by
    rw [gUI_mult]
    simp only [evalUI]
    exact (giU hp l h.1).bind (giU hp r h.2) (by nodiv)
  | .div l r, h => by
    rw [gUI_div]
    exact (giU hp l h.1).udiv (giU hp r h.2)
  | .rem l r, h => by
    rw [gUI_rem]
    simp only [evalUI]
    exact (giU hp l h.1).bind (giU hp r h.2) (by nodiv)
  | .xor l r, h => by
    rw [gUI_xor]
    simp only [evalUI]
    exact (giU hp l h.1).bind (giU hp r h.2) (by nodiv)
  | .and l r, h => by
    rw [gUI_and]
    simp only [evalUI]
    exact (giU hp l h.1).bind (giU hp r h.2) (by nodiv)
  | .or l r, h => by
    rw [gUI_or]
    simp only [evalUI]
    exact (giU hp l h.1).bind (giU hp r h.2) (by nodiv)
  | .leftShift l r, h => by
    rw [gUI_leftShift]
    simp only [evalUI]
    exact (giU hp l h.1).bind (giU hp r h.2) (by nodiv)
  | .rightShift l r, h => by
    rw [gUI_rightShift]
    simp only [evalUI]
    exact (giU hp l h.1).bind (giU hp r h.2) (by nodiv)
  | .not e, h => by
    rw [gUI_not]
    simp only [evalUI]
    exact (giU hp e h).map (by nodiv)
  | .cond c t e, h => by
    rw [gUI_cond]
    simp only [evalUI]
    exact (giB hp c h.1).cond (giU hp t h.2.1) (giU hp e h.2.2)
end

theorem giZ (hp : 2 < p) {e : ZExpr (ZMod p)} (h : e.NoPowZero) : GI O σ (gZ Z e) (evalZ σ.env e) := by
  cases e with
  | field e => exact (giF hp e h).map (by nodiv)
  | bool e => exact (giB hp e h).map (by nodiv)
  | uint e => exact (giU hp e h).map (by nodiv)

theorem giZs (hp : 2 < p) {es : List (ZExpr (ZMod p))} (h : ∀ e ∈ es, e.NoPowZero) : GI O σ (gZs Z es) (evalZs σ.env es) := by
  induction es with
  | nil => exact GI.nil (by simp [evalZs])
  | cons e es ih =>
    rw [gZs_cons]
    simp only [evalZs]
    exact (giZ hp (h e List.mem_cons_self)).bind (ih fun e he => h e (List.mem_cons_of_mem _ he)) (by nodiv)

theorem Conjunct.safe (hp : 2 < p) {c e : BExpr (ZMod p)} (hc : Conjunct c e) (h : e.NoPowZero) (hs : Pass O σ (gB Z e)) :
    evalB σ.env c ≠ .error .divZero := by
  induction hc with
  | self => exact (giB hp _ h).safe hs
  | @left l r hc ih =>
    rw [gB_and] at hs
    exact ih h.1 ((giB (O := O) (σ := σ) hp _ h.1).guards.pass_append.1 hs).1
  | @right l r hc ih =>
    rw [gB_and] at hs
    exact ih h.2 ((giB (O := O) (σ := σ) hp _ h.1).guards.pass_append.1 hs).2

theorem poly_guards {e : FExpr (ZMod p)} (h : e.Poly) : gF Z e = [] ∧ ∀ env : ZEnv p, evalF env e ≠ .error .divZero := by
  have key : ∀ n, ∀ e : FExpr (ZMod p), sizeOf e < n → e.Poly → gF Z e = [] ∧ ∀ env : ZEnv p, evalF env e ≠ .error .divZero := by
    intro n
    induction n with
    | zero => intro e h; omega
    | succ n ih =>
      intro e hn h
      cases e with
      | value x => exact ⟨rfl, fun env => by simp [evalF]⟩
      | ident x => exact ⟨rfl, fun env => by simp only [evalF]; split <;> simp⟩
      | add l r =>
        simp only [FExpr.add.sizeOf_spec] at hn
        obtain ⟨l1, l2⟩ := ih l (by omega) h.1
        obtain ⟨r1, r2⟩ := ih r (by omega) h.2
        refine ⟨by rw [gF_add, l1, r1]; rfl, fun env => ?_⟩
        simp only [evalF]
        have := l2 env; have := r2 env
        cases hl : evalF env l <;> cases hr : evalF env r <;> simp_all
      | sub l r =>
        simp only [FExpr.sub.sizeOf_spec] at hn
        obtain ⟨l1, l2⟩ := ih l (by omega) h.1
        obtain ⟨r1, r2⟩ := ih r (by omega) h.2
        refine ⟨by rw [gF_sub, l1, r1]; rfl, fun env => ?_⟩
        simp only [evalF]
        have := l2 env; have := r2 env
        cases hl : evalF env l <;> cases hr : evalF env r <;> simp_all
      | mult l r =>
        simp only [FExpr.mult.sizeOf_spec] at hn
        obtain ⟨l1, l2⟩ := ih l (by omega) h.1
        obtain ⟨r1, r2⟩ := ih r (by omega) h.2
        refine ⟨by rw [gF_mult, l1, r1]; rfl, fun env => ?_⟩
        simp only [evalF]
        have := l2 env; have := r2 env
        cases hl : evalF env l <;> cases hr : evalF env r <;> simp_all
      | _ => exact h.elim
  exact key _ e (Nat.lt_succ_self _) h

variable {hx : Z → Buf p Z → Z}

/-- Hints of the folded block. -/
def mapHint (hx : Z → Buf p Z → Z) : ZAsm (ZMod p) Z → ZAsm (ZMod p) Z
  | .assignment xs f args => .assignment xs (hx f []) args
  | s => s

theorem exAsms_poly {ss : List (ZAsm (ZMod p) Z)} (h : ∀ s ∈ ss, ZAsm.Poly s) :
    exAsms hx ss [] = (ss.map (mapHint hx), []) := by
  induction ss with
  | nil => rfl
  | cons s ss ih =>
    have hs : exAsm hx s [] = (mapHint hx s, []) := by
      cases s with
      | assignment xs f args => rfl
      | constraint l r info =>
        obtain ⟨hl, hr⟩ := h _ List.mem_cons_self
        have h1 := (poly_guards (Z := Z) hl).1
        have h2 := (poly_guards (Z := Z) hr).1
        rw [gF] at h1 h2
        simp only [exAsm]
        rw [exF_eq l, h1, List.append_nil, exF_eq r, h2]
        rfl
    simp only [exAsms, hs, ih fun s h' => h s (List.mem_cons_of_mem _ h'), List.map_cons]

theorem execAsm_mapHint (hO : ∀ z, O.hint (hx z []) = O.hint z) {s : ZAsm (ZMod p) Z} {r : Except Fault (ZState p)} :
    ExecAsm O σ (mapHint hx s) r ↔ ExecAsm O σ s r := by
  cases s with
  | assignment xs f args =>
    constructor
    · intro h
      cases h with
      | assignment h1 h2 h3 => rw [hO] at h2; exact .assignment h1 h2 h3
    · intro h
      cases h with
      | assignment h1 h2 h3 => rw [← hO] at h2; exact .assignment h1 h2 h3
  | constraint l r info => exact Iff.rfl

theorem execAsms_mapHint (hO : ∀ z, O.hint (hx z []) = O.hint z) {ss : List (ZAsm (ZMod p) Z)} {σ : ZState p}
    {r : Except Fault (ZState p)} : ExecAsms O σ (ss.map (mapHint hx)) r ↔ ExecAsms O σ ss r := by
  induction ss generalizing σ with
  | nil => exact Iff.rfl
  | cons s ss ih =>
    rw [List.map_cons]
    constructor
    · intro h
      cases h with
      | fault h => exact .fault ((execAsm_mapHint hO).1 h)
      | cons h1 h2 => exact .cons ((execAsm_mapHint hO).1 h1) (ih.1 h2)
    · intro h
      cases h with
      | fault h => exact .fault ((execAsm_mapHint hO).2 h)
      | cons h1 h2 => exact .cons ((execAsm_mapHint hO).2 h1) (ih.2 h2)

theorem execAsms_noDiv {ss : List (ZAsm (ZMod p) Z)} (h : ∀ s ∈ ss, ZAsm.Poly s) {σ : ZState p} :
    ¬ ExecAsms O σ ss (.error .divZero) := by
  induction ss generalizing σ with
  | nil => intro h; cases h
  | cons s ss ih =>
    have ih := fun {σ} => ih (σ := σ) fun s h' => h s (List.mem_cons_of_mem _ h')
    have hs := h s List.mem_cons_self
    intro h
    cases h with
    | cons h1 h2 => exact ih h2
    | fault h =>
      cases h with
      | faultL h => exact (poly_guards (Z := Z) hs.1).2 _ h
      | faultR _ h => exact (poly_guards (Z := Z) hs.2).2 _ h

/-- What the extraction does to a statement: the same states are reached, failures stay failures, and division by zero is
no longer one of them. -/
structure Same (O : Oracle p Z) (r r' : ZState p → Except Fault (ZState p) → Prop) : Prop where
  ok : ∀ σ σ', r' σ (.ok σ') ↔ r σ (.ok σ')
  fails : ∀ σ, (∃ e, r' σ (.error e)) ↔ ∃ e, r σ (.error e)
  noDiv : ∀ σ, ¬ r' σ (.error .divZero)

/-- Guards in front of a statement. -/
theorem same_guarded {g : ZState p → Buf p Z} {gs : Buf p Z} {s s' : ZStmt (ZMod p) Z} {α : Type} (r : ZState p → Except Fault α)
    (hg : ∀ σ, GI O σ gs (r σ))
    (hok : ∀ σ σ', Exec O σ s (.ok σ') → ∃ v, r σ = .ok v)
    (herr : ∀ σ f, r σ = .error f → ∃ e, Exec O σ s (.error e))
    (hss : ∀ σ σ', Exec O σ s' (.ok σ') ↔ Exec O σ s (.ok σ'))
    (hse : ∀ σ, (∃ e, Exec O σ s' (.error e)) ↔ ∃ e, Exec O σ s (.error e))
    (hd : ∀ σ, Pass O σ gs → ¬ Exec O σ s' (.error .divZero)) :
    Same O (fun σ r => Exec O σ s r) (fun σ r => ExecL O σ (gs ++ [s']) r) := by
  refine ⟨fun σ σ' => ?_, fun σ => ?_, fun σ h => ?_⟩
  · rw [(hg σ).guards.execL_append]
    constructor
    · rintro (⟨_, h⟩ | ⟨e, h, _⟩)
      · exact (hss σ σ').1 (execL_single.1 h)
      · cases h
    · intro h
      obtain ⟨v, hv⟩ := hok σ σ' h
      exact .inl ⟨(hg σ).pass v hv, execL_single.2 ((hss σ σ').2 h)⟩
  · constructor
    · rintro ⟨e, h⟩
      rcases (hg σ).guards.execL_append.1 h with ⟨_, h⟩ | ⟨e', _, h⟩
      · exact (hse σ).1 ⟨e, execL_single.1 h⟩
      · cases hr : r σ with
        | ok v => exact absurd h ((hg σ).guards.excl ((hg σ).pass v hr))
        | error f => exact herr σ f hr
    · intro h
      obtain ⟨e, h⟩ := (hse σ).2 h
      rcases (hg σ).guards.total O σ with h1 | ⟨e', h1⟩
      · exact ⟨e, (hg σ).guards.execL_append.2 (.inl ⟨h1, execL_single.2 h⟩)⟩
      · exact ⟨e', (hg σ).guards.execL_append.2 (.inr ⟨e', rfl, h1⟩)⟩
  · rcases (hg σ).guards.execL_append.1 h with ⟨h1, h⟩ | ⟨e', h1, h⟩
    · exact hd σ h1 (execL_single.1 h)
    · cases h1; exact (hg σ).noDiv h

theorem same_append {s : ZStmt (ZMod p) Z} {ss as bs : List (ZStmt (ZMod p) Z)}
    (h1 : Same O (fun σ r => Exec O σ s r) (fun σ r => ExecL O σ as r))
    (h2 : Same O (fun σ r => ExecL O σ ss r) (fun σ r => ExecL O σ bs r)) :
    Same O (fun σ r => ExecL O σ (s :: ss) r) (fun σ r => ExecL O σ (as ++ bs) r) := by
  refine ⟨fun σ σ' => ?_, fun σ => ?_, fun σ h => ?_⟩
  · rw [execL_append]
    constructor
    · rintro (⟨σ₁, a, b⟩ | ⟨e, h, _⟩)
      · exact .cons ((h1.ok _ _).1 a) ((h2.ok _ _).1 b)
      · cases h
    · intro h
      cases h with
      | cons a b => exact .inl ⟨_, (h1.ok _ _).2 a, (h2.ok _ _).2 b⟩
  · constructor
    · rintro ⟨e, h⟩
      rcases execL_append.1 h with ⟨σ₁, a, b⟩ | ⟨e, _, a⟩
      · obtain ⟨f, hf⟩ := (h2.fails _).1 ⟨e, b⟩
        exact ⟨f, .cons ((h1.ok _ _).1 a) hf⟩
      · obtain ⟨f, hf⟩ := (h1.fails _).1 ⟨e, a⟩
        exact ⟨f, .fault hf⟩
    · rintro ⟨e, h⟩
      cases h with
      | cons a b =>
        obtain ⟨f, hf⟩ := (h2.fails _).2 ⟨e, b⟩
        exact ⟨f, execL_append.2 (.inl ⟨_, (h1.ok _ _).2 a, hf⟩)⟩
      | fault a =>
        obtain ⟨f, hf⟩ := (h1.fails _).2 ⟨e, a⟩
        exact ⟨f, execL_append.2 (.inr ⟨f, rfl, hf⟩)⟩
  · rcases execL_append.1 h with ⟨σ₁, a, b⟩ | ⟨e, h3, a⟩
    · exact h2.noDiv _ b
    · cases h3; exact h1.noDiv _ a

mutual
theorem exStmt_same (hp : 2 < p) (hO : ∀ z, O.hint (hx z []) = O.hint z) : ∀ s : ZStmt (ZMod p) Z, s.Extractable →
    Same O (fun σ r => Exec O σ s r) (fun σ r => ExecL O σ (exStmt hx s) r)
  | .ret es, h => by
    simp only [exStmt]
    rw [exZs_eq es, List.nil_append]
    refine same_guarded (g := fun _ => []) (fun σ => evalZs σ.env es) (fun σ => giZs hp h) (fun σ σ' h => ?_) (fun σ f h => ⟨f, .retFault h⟩)
      (fun _ _ => Iff.rfl) (fun _ => Iff.rfl) fun σ h1 h2 => ?_
    · cases h with | ret h => exact ⟨_, h⟩
    · cases h2 with | retFault h2 => exact (giZs hp h).safe h1 h2
  | .definition x e, h => by
    simp only [exStmt]
    rw [exZ_eq e, List.nil_append]
    refine same_guarded (g := fun _ => []) (fun σ => evalZ σ.env e) (fun σ => giZ hp h) (fun σ σ' h => ?_) (fun σ f h => ⟨f, .definitionFault h⟩)
      (fun _ _ => Iff.rfl) (fun _ => Iff.rfl) fun σ h1 h2 => ?_
    · cases h with | definition h => exact ⟨_, h⟩
    · cases h2 with | definitionFault h2 => exact (giZ hp h).safe h1 h2
  | .ifElse c t e, h => by
    have ht := exStmts_same hp hO t h.2.1
    have he := exStmts_same hp hO e h.2.2
    simp only [exStmt]
    rw [exB_eq c, List.nil_append]
    refine same_guarded (g := fun _ => []) (fun σ => evalB σ.env c) (fun σ => giB hp c h.1) (fun σ σ' h => ?_) (fun σ f h => ⟨f, .ifFault h⟩)
      (fun σ σ' => ?_) (fun σ => ?_) fun σ h1 h2 => ?_
    · cases h with | ifElse h => exact ⟨_, h⟩
    · constructor
      · intro h
        cases h with | ifElse h1 h2 h3 => exact .ifElse h1 ((ht.ok _ _).1 h2) ((he.ok _ _).1 h3)
      · intro h
        cases h with | ifElse h1 h2 h3 => exact .ifElse h1 ((ht.ok _ _).2 h2) ((he.ok _ _).2 h3)
    · constructor
      · rintro ⟨f, h⟩
        cases h with
        | ifElse h1 h2 h3 =>
          obtain ⟨f, hf⟩ := (he.fails _).1 ⟨f, h3⟩
          exact ⟨f, .ifElse h1 ((ht.ok _ _).1 h2) hf⟩
        | ifFault h1 => exact ⟨_, .ifFault h1⟩
        | thenFault h1 h2 =>
          obtain ⟨f, hf⟩ := (ht.fails _).1 ⟨f, h2⟩
          exact ⟨f, .thenFault h1 hf⟩
      · rintro ⟨f, h⟩
        cases h with
        | ifElse h1 h2 h3 =>
          obtain ⟨f, hf⟩ := (he.fails _).2 ⟨f, h3⟩
          exact ⟨f, .ifElse h1 ((ht.ok _ _).2 h2) hf⟩
        | ifFault h1 => exact ⟨_, .ifFault h1⟩
        | thenFault h1 h2 =>
          obtain ⟨f, hf⟩ := (ht.fails _).2 ⟨f, h2⟩
          exact ⟨f, .thenFault h1 hf⟩
    · cases h2 with
      | ifElse _ _ h3 => exact he.noDiv _ h3
      | ifFault h2 => exact (giB hp c h.1).safe h1 h2
      | thenFault _ h3 => exact ht.noDiv _ h3
  | .assertion e err, h => by
    simp only [exStmt]
    rw [exB_eq e, List.nil_append]
    refine same_guarded (g := fun _ => []) (fun σ => evalB σ.env e) (fun σ => giB hp e h) (fun σ σ' h => ?_) (fun σ f h => ⟨f, .assertFault (.self e) h⟩)
      (fun _ _ => Iff.rfl) (fun _ => Iff.rfl) fun σ h1 h2 => ?_
    · cases h with | assertOk h => exact ⟨_, h⟩
    · cases h2 with | assertFault hc h2 => exact Conjunct.safe hp hc h h1 h2
  | .multiDef xs embed g args, h => by
    simp only [exStmt]
    rw [exZs_eq args, List.nil_append]
    refine same_guarded (g := fun _ => []) (fun σ => evalZs σ.env args) (fun σ => giZs hp h) (fun σ σ' h => ?_) (fun σ f h => ⟨f, .argsFault h⟩)
      (fun _ _ => Iff.rfl) (fun _ => Iff.rfl) fun σ h1 h2 => ?_
    · cases h with | multiDef h => exact ⟨_, h⟩
    · cases h2 with
      | embedFault h3 h4 => cases h4
      | argsFault h2 => exact (giZs hp h).safe h1 h2
  | .log es, h => by
    simp only [exStmt]
    rw [exZss_eq es, List.nil_append]
    refine same_guarded (g := fun _ => []) (fun σ => evalZs σ.env es.flatten) (fun σ => giZs hp h) (fun σ σ' h => ?_) (fun σ f h => ⟨f, .logFault h⟩)
      (fun _ _ => Iff.rfl) (fun _ => Iff.rfl) fun σ h1 h2 => ?_
    · cases h with | log h => exact ⟨_, h⟩
    · cases h2 with | logFault h2 => exact (giZs hp h).safe h1 h2
  | .assembly ss, h => by
    have hb : exAsms hx ss [] = (ss.map (mapHint hx), []) := exAsms_poly h
    simp only [exStmt, hb, List.nil_append]
    refine ⟨fun σ σ' => ?_, fun σ => ?_, fun σ h1 => ?_⟩
    · rw [execL_single]
      constructor
      · intro h1
        cases h1 with | assembly h1 => exact .assembly ((execAsms_mapHint hO).1 h1)
      · intro h1
        cases h1 with | assembly h1 => exact .assembly ((execAsms_mapHint hO).2 h1)
    · constructor
      · rintro ⟨e, h1⟩
        rw [execL_single] at h1
        cases h1 with | assembly h1 => exact ⟨e, .assembly ((execAsms_mapHint hO).1 h1)⟩
      · rintro ⟨e, h1⟩
        cases h1 with | assembly h1 => exact ⟨e, execL_single.2 (.assembly ((execAsms_mapHint hO).2 h1))⟩
    · rw [execL_single] at h1
      cases h1 with | assembly h1 => exact execAsms_noDiv h ((execAsms_mapHint hO).1 h1)
theorem exStmts_same (hp : 2 < p) (hO : ∀ z, O.hint (hx z []) = O.hint z) : ∀ ss : List (ZStmt (ZMod p) Z),
    ZStmt.ExtractableL ss → Same O (fun σ r => ExecL O σ ss r) (fun σ r => ExecL O σ (exStmts hx ss) r)
  | [], _ => ⟨fun _ _ => Iff.rfl, fun _ => Iff.rfl, fun _ h => by cases h⟩
  | s :: ss, h => by
    have h1 := exStmt_same hp hO s h.1
    have h2 := exStmts_same hp hO ss h.2
    simp only [exStmts]
    exact same_append h1 h2
end

end Zok.Px
