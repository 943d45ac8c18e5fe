import Verif.Lemmas.Propagate

/- Constant propagation preserves values: the induction over expressions. -/

namespace Zok.Prop'
open Zok
variable {p : ℕ} [Fact p.Prime]

/-- Before and after propagation. -/
def R2 {α : Type} (S : Prop) (x y : Except Fault α) (v : α) : Prop := Ev False x v ∧ Ev S y v

section
variable {l r : FExpr (ZMod p)}
theorem ty_foldAdd (hl : TyF l) (hr : TyF r) : TyF (foldAdd l r) := by
  unfold foldAdd; split <;> [exact hr; split <;> [exact hl; split <;> simp only [TyF] <;> exact ⟨hl, hr⟩]]
theorem ty_foldSub (hl : TyF l) (hr : TyF r) : TyF (foldSub l r) := by
  unfold foldSub; split <;> [exact hl; split <;> simp only [TyF] <;> exact ⟨hl, hr⟩]
theorem ty_foldMult (hl : TyF l) (hr : TyF r) : TyF (foldMult l r) := by
  unfold foldMult
  split
  · simp only [TyF]
  split <;> [exact hr; split <;> [exact hl; split <;> simp only [TyF] <;> exact ⟨hl, hr⟩]]
theorem ty_foldDiv (hl : TyF l) (hr : TyF r) {e : FExpr (ZMod p)} (h : foldDiv l r = .ok e) : TyF e := by
  unfold foldDiv at h
  split at h
  · cases h
  split at h
  · cases h; exact hl
  split at h <;> cases h <;> simp only [TyF]
  exact ⟨hl, hr⟩
theorem ty_foldPow {n : UInner (ZMod p)} (hl : TyF l) (hn : TyUI 32 n) : TyF (foldPow l n) := by
  unfold foldPow
  split
  · simp only [TyF]
  split
  · exact hl
  split
  · simp only [TyF]
  · simp only [TyF, TyU, UExpr.width]; exact ⟨hl, ⟨by norm_num, hn⟩, trivial⟩
theorem ty_foldFieldLt (hl : TyF l) (hr : TyF r) : TyB (foldFieldLt l r) := by
  unfold foldFieldLt
  split
  · simp only [TyB]
  split
  · simp only [TyB]
  split <;> simp only [TyB]
  exact ⟨hl, hr⟩
theorem ty_foldFieldLe (hl : TyF l) (hr : TyF r) : TyB (foldFieldLe l r) := by
  unfold foldFieldLe
  split <;> simp only [TyB]
  exact ⟨hl, hr⟩
theorem ty_foldFieldEq (hl : TyF l) (hr : TyF r) : TyB (foldFieldEq l r) := by
  unfold foldFieldEq
  split
  · simp only [TyB]
  split <;> simp only [TyB]
  exact ⟨hl, hr⟩
end
section
variable {l r : UExpr (ZMod p)}
theorem ty_foldUintLt (hl : TyU l) (hr : TyU r) (hw : l.width = r.width) : TyB (foldUintLt l r) := by
  unfold foldUintLt
  split <;> simp only [TyB]
  exact ⟨hl, hr, hw⟩
theorem ty_foldUintLe (hl : TyU l) (hr : TyU r) (hw : l.width = r.width) : TyB (foldUintLe l r) := by
  unfold foldUintLe
  split <;> simp only [TyB]
  exact ⟨hl, hr, hw⟩
theorem ty_foldUintEq (hl : TyU l) (hr : TyU r) (hw : l.width = r.width) : TyB (foldUintEq l r) := by
  unfold foldUintEq
  split
  · simp only [TyB]
  split <;> simp only [TyB]
  exact ⟨hl, hr, hw⟩
end
section
variable {l r : BExpr (ZMod p)}
theorem ty_foldBoolEq (hl : TyB l) (hr : TyB r) : TyB (foldBoolEq l r) := by
  unfold foldBoolEq
  split
  · simp only [TyB]
  split <;> simp only [TyB]
  exact ⟨hl, hr⟩
theorem ty_foldBOr (hl : TyB l) (hr : TyB r) : TyB (foldBOr l r) := by
  unfold foldBOr
  split
  · simp only [TyB]
  split
  · simp only [TyB]
  split <;> [exact hl; split <;> [exact hr; (simp only [TyB]; exact ⟨hl, hr⟩)]]
theorem ty_foldBAnd (hl : TyB l) (hr : TyB r) : TyB (foldBAnd l r) := by
  unfold foldBAnd
  split <;> [exact hr; split <;> [exact hl; split <;> simp only [TyB]]]
  exact ⟨hl, hr⟩
theorem ty_foldNot (hl : TyB l) : TyB (foldNot l) := by
  unfold foldNot; split <;> simp only [TyB]; exact hl
end

/-- Literals in range, and other well-typed expressions. -/
theorem ty_of_val {S : Prop} {env : ZEnv p} {w v : ℕ} {i : UInner (ZMod p)} (hv : v < 2 ^ w)
    (he : Ev S (evalUI env w i) v) (h : uval? i = none → TyUI w i) : TyUI w i := by
  cases hu : uval? i with
  | none => exact h hu
  | some n => have := ev_uval hu he; subst this; rw [uval_eq hu]; simpa only [TyUI] using hv

section
variable {w : ℕ} {l r : UInner (ZMod p)}
theorem ty_bin (hw : w ≤ 64) (hl : TyUI w l) (hr : TyUI w r) :
    TyU (.mk w none l) ∧ TyU (.mk w none r) ∧ (UExpr.mk w none l).width = w ∧ (UExpr.mk w none r).width = w := by
  simp only [TyU, UExpr.width]; exact ⟨⟨hw, hl⟩, ⟨hw, hr⟩, trivial, trivial⟩
theorem ty_shift (hw : w ≤ 64) (hl : TyUI w l) (hr : TyUI 32 r) :
    TyU (.mk w none l) ∧ TyU (.mk 32 none r) ∧ (UExpr.mk w none l).width = w ∧ (UExpr.mk 32 none r).width = 32 := by
  simp only [TyU, UExpr.width]; exact ⟨⟨hw, hl⟩, ⟨by norm_num, hr⟩, trivial, trivial⟩
theorem ty_foldUAdd (hw : w ≤ 64) (hl : TyUI w l) (hr : TyUI w r) : uval? (foldUAdd w l r) = none → TyUI w (foldUAdd w l r) := by
  unfold foldUAdd
  repeat' split
  all_goals intro h
  all_goals (first | exact hl | exact hr | (simp [uval?] at h; done) | (simp only [TyUI]; exact ty_bin hw hl hr))
theorem ty_foldUSub (hw : w ≤ 64) (hl : TyUI w l) (hr : TyUI w r) : uval? (foldUSub w l r) = none → TyUI w (foldUSub w l r) := by
  unfold foldUSub
  repeat' split
  all_goals intro h
  all_goals (first | exact hl | exact hr | (simp [uval?] at h; done) | (simp only [TyUI]; exact ty_bin hw hl hr))
theorem ty_foldUMult (hw : w ≤ 64) (hl : TyUI w l) (hr : TyUI w r) : uval? (foldUMult w l r) = none → TyUI w (foldUMult w l r) := by
  unfold foldUMult
  repeat' split
  all_goals intro h
  all_goals (first | exact hl | exact hr | (simp [uval?] at h; done) | (simp only [TyUI]; exact ty_bin hw hl hr))
theorem ty_foldUXor (hw : w ≤ 64) (hl : TyUI w l) (hr : TyUI w r) : uval? (foldUXor w l r) = none → TyUI w (foldUXor w l r) := by
  unfold foldUXor
  repeat' split
  all_goals intro h
  all_goals (first | exact hl | exact hr | (simp [uval?] at h; done) | (simp only [TyUI]; exact ty_bin hw hl hr))
theorem ty_foldUAnd (hw : w ≤ 64) (hl : TyUI w l) (hr : TyUI w r) : uval? (foldUAnd w l r) = none → TyUI w (foldUAnd w l r) := by
  unfold foldUAnd
  repeat' split
  all_goals intro h
  all_goals (first | exact hl | exact hr | (simp [uval?] at h; done) | (simp only [TyUI]; exact ty_bin hw hl hr))
theorem ty_foldUOr (hw : w ≤ 64) (hl : TyUI w l) (hr : TyUI w r) : uval? (foldUOr w l r) = none → TyUI w (foldUOr w l r) := by
  unfold foldUOr
  repeat' split
  all_goals intro h
  all_goals (first | exact hl | exact hr | (simp [uval?] at h; done) | (simp only [TyUI]; exact ty_bin hw hl hr))
theorem ty_foldULeftShift (hw : w ≤ 64) (hl : TyUI w l) (hr : TyUI 32 r) : uval? (foldULeftShift w l r) = none → TyUI w (foldULeftShift w l r) := by
  unfold foldULeftShift
  repeat' split
  all_goals intro h
  all_goals (first | exact hl | (simp [uval?] at h; done) | (simp only [TyUI]; exact ty_shift hw hl hr))
theorem ty_foldURightShift (hw : w ≤ 64) (hl : TyUI w l) (hr : TyUI 32 r) : uval? (foldURightShift w l r) = none → TyUI w (foldURightShift w l r) := by
  unfold foldURightShift
  repeat' split
  all_goals intro h
  all_goals (first | exact hl | (simp [uval?] at h; done) | (simp only [TyUI]; exact ty_shift hw hl hr))
theorem ty_foldUDiv (hw : w ≤ 64) (hl : TyUI w l) (hr : TyUI w r) {e : UInner (ZMod p)} (h' : foldUDiv w l r = .ok e) : uval? e = none → TyUI w e := by
  unfold foldUDiv at h'
  intro h
  repeat' split at h'
  all_goals cases h'
  all_goals (first | exact hl | (simp [uval?] at h; done) | (simp only [TyUI]; exact ty_bin hw hl hr))
theorem ty_foldURem (hw : w ≤ 64) (hl : TyUI w l) (hr : TyUI w r) {e : UInner (ZMod p)} (h' : foldURem w l r = .ok e) : uval? e = none → TyUI w e := by
  unfold foldURem at h'
  intro h
  repeat' split at h'
  all_goals cases h'
  all_goals (first | exact hl | (simp [uval?] at h; done) | (simp only [TyUI]; exact ty_bin hw hl hr))
theorem ty_foldUNot (hw : w ≤ 64) (hl : TyUI w l) : uval? (foldUNot w l) = none → TyUI w (foldUNot w l) := by
  unfold foldUNot
  split
  · intro h; simp [uval?] at h
  · intro _; simp only [TyUI, TyU, UExpr.width]; exact ⟨⟨hw, hl⟩, trivial⟩
theorem tyU_iff (e : UExpr (ZMod p)) : TyU e ↔ e.width ≤ 64 ∧ TyUI e.width e.inner := by
  cases e; simp only [TyU, UExpr.width, UExpr.inner]
theorem tyFs_of {es : List (FExpr (ZMod p))} (h : ∀ e ∈ es, TyF e) : TyFs es := by
  induction es with
  | nil => simp only [TyFs]
  | cons e es ih => simp only [TyFs]; exact ⟨h e (by simp), ih fun x hx => h x (by simp [hx])⟩
theorem tyBs_of {es : List (BExpr (ZMod p))} (h : ∀ e ∈ es, TyB e) : TyBs es := by
  induction es with
  | nil => simp only [TyBs]
  | cons e es ih => simp only [TyBs]; exact ⟨h e (by simp), ih fun x hx => h x (by simp [hx])⟩
theorem tyUs_of {es : List (UExpr (ZMod p))} (h : ∀ e ∈ es, TyU e ∧ e.width = w) : TyUs w es := by
  induction es with
  | nil => simp only [TyUs]
  | cons e es ih => simp only [TyUs]; exact ⟨h e (by simp), ih fun x hx => h x (by simp [hx])⟩
end


theorem exc_ok_bind {ε α β : Type} (a : α) (f : α → Except ε β) : (Except.ok a >>= f) = f a := rfl

theorem Ev.false_eq {α : Type} {x : Except Fault α} {v : α} (h : Ev False x v) : x = .ok v := by
  rcases h with h | h
  · exact h
  · exact h.1.elim

theorem ev_inj {α : Type} {x y : Except Fault α} {v w : α} (h1 : Ev False x v) (h2 : Ev False y w) (h : x = y) :
    v = w := by
  have e1 := h1.false_eq
  have e2 := h2.false_eq
  rw [h, e2] at e1; cases e1; rfl

theorem forall2_get {α β : Type} {R : α → β → Prop} {l : List α} {m : List β} (h : List.Forall₂ R l m) :
    ∀ (k : ℕ) (b : β), m[k]? = some b → ∃ a, l[k]? = some a ∧ R a b := by
  induction h with
  | nil => intro k b hk; simp at hk
  | @cons a b l m h1 h2 ih =>
    intro k b' hk
    cases k with
    | zero => simp at hk; subst hk; exact ⟨a, by simp, h1⟩
    | succ k => simp at hk; obtain ⟨a', h, h'⟩ := ih k b' hk; exact ⟨a', by simpa using h, h'⟩

theorem ev_selectVal {α : Type} {S : Prop} {vs : List α} {k : ℕ} {v : α} (h : selectVal vs k = .ok v) :
    Ev S (selectVal vs k) v := .of_eq h

theorem ev_evalFs {S : Prop} {env : ZEnv p} {l : List (FExpr (ZMod p))} {vs : List (ZMod p)}
    (h : List.Forall₂ (fun e v => Ev S (evalF env e) v) l vs) : Ev S (evalFs env l) vs := by
  induction h with
  | nil => exact .of_eq (by simp only [evalFs])
  | cons h1 _ ih => simp only [evalFs]; exact h1.bind (ih.bind (.ok _))
theorem ev_evalBs {S : Prop} {env : ZEnv p} {l : List (BExpr (ZMod p))} {vs : List Bool}
    (h : List.Forall₂ (fun e v => Ev S (evalB env e) v) l vs) : Ev S (evalBs env l) vs := by
  induction h with
  | nil => exact .of_eq (by simp only [evalBs])
  | cons h1 _ ih => simp only [evalBs]; exact h1.bind (ih.bind (.ok _))
theorem ev_evalUs {S : Prop} {env : ZEnv p} {l : List (UExpr (ZMod p))} {vs : List ℕ}
    (h : List.Forall₂ (fun e v => Ev S (evalU env e) v) l vs) : Ev S (evalUs env l) vs := by
  induction h with
  | nil => exact .of_eq (by simp only [evalUs])
  | cons h1 _ ih => simp only [evalUs]; exact h1.bind (ih.bind (.ok _))

theorem isConst_prop {c : Consts p} {e e' : FExpr (ZMod p)} (h : propF c e = .ok e') (hc : e.isConst = true) :
    e'.isConst = true := by
  unfold FExpr.isConst at hc
  split at hc
  · simp only [propF] at h; cases h; rfl
  · simp only [propF, propU, propUI] at h
    change (do let e' ← propF c _; Except.ok (foldPow e' (.value 0))) = _ at h
    obtain ⟨b, _, h⟩ := exc_bind_ok h
    cases h
    simp [foldPow, uval?, FExpr.isConst]
  · cases hc

theorem getElem_ok {α : Type} {es : List α} {k : ℕ} {e : α} (h : es[k]? = some e) : getElem es k = .ok e := by
  unfold getElem; rw [h]

section
variable {S : Prop} {c : Consts p} {env env' : ZEnv p}

mutual

theorem propF_ok (ha : Agree S c env env') (he : UintsFit env) : ∀ (e : FExpr (ZMod p)) (v : ZMod p), TyF e → evalF env e = .ok v →
    ∃ e', propF c e = .ok e' ∧ TyF e' ∧ R2 S (evalF env e') (evalF env' e') v
  | .value n, v, ht, h => ⟨.value n, by simp only [propF], by simp only [TyF], by simp only [evalF] at h ⊢; exact ⟨.of_eq h, .of_eq h⟩⟩
  | .ident x, v, ht, h => by
    simp only [propF]
    rcases hc : c x with _ | w
    · refine ⟨_, rfl, by simp only [TyF], .of_eq h, ?_⟩
      simp only [evalF] at h ⊢
      rcases ha.other x hc with h' | ⟨hs, h'⟩
      · rw [h']; exact .of_eq h
      · rw [h']; exact .inr ⟨hs, rfl⟩
    · simp only [evalF] at h
      rw [ha.const x w hc] at h
      cases w with
      | field v' => cases h; exact ⟨_, rfl, by simp only [TyF], .of_eq (by simp only [evalF]), .of_eq (by simp only [evalF])⟩
      | bool b => cases h
      | uint w n => cases h
  | .select es i, v, ht, h => by
    simp only [TyF] at ht; simp only [evalF] at h
    obtain ⟨k, hk, h⟩ := exc_bind_ok h
    obtain ⟨vs, hvs, h⟩ := exc_bind_ok h
    obtain ⟨i', hi, ti, hw, hi2⟩ := propU_ok ha he i k ht.2.1 hk
    obtain ⟨es', hes, tes, hes2⟩ := propFs_ok ha he es vs ht.1 hvs
    simp only [propF, hi, hes]
    have hk2 := hi2.1; rw [evalU_eq] at hk2
    change ∃ e', (match uval? i'.inner with | some k => getElem es' k | none => .ok (.select es' i')) = _ ∧ _
    split
    · rename_i k' hk'
      have := ev_uval hk' hk2; subst this
      obtain ⟨e', he', hr⟩ := forall2_get hes2 k v (selectVal_mem h)
      exact ⟨e', getElem_ok he', tes e' (List.mem_of_getElem? he'), hr⟩
    · refine ⟨_, rfl, ?_, ?_, ?_⟩
      · simp only [TyF]; exact ⟨tyFs_of tes, ti, hw.trans ht.2.2⟩
      · simp only [evalF]
        exact hi2.1.bind ((ev_evalFs (hes2.imp fun _ _ h => h.1)).bind (ev_selectVal h))
      · simp only [evalF]
        exact hi2.2.bind ((ev_evalFs (hes2.imp fun _ _ h => h.2)).bind (ev_selectVal h))
  | .add l r, v, ht, h => by
    simp only [TyF] at ht; simp only [evalF] at h
    obtain ⟨a, h1, h⟩ := exc_bind_ok h
    obtain ⟨b, h2, h⟩ := exc_bind_ok h
    cases h
    obtain ⟨l', hl, tl, hl2⟩ := propF_ok ha he l a ht.1 h1
    obtain ⟨r', hr, tr, hr2⟩ := propF_ok ha he r b ht.2 h2
    simp only [propF, hl, hr]
    exact ⟨_, rfl, ty_foldAdd tl tr, ev_foldAdd hl2.1 hr2.1, ev_foldAdd hl2.2 hr2.2⟩
  | .sub l r, v, ht, h => by
    simp only [TyF] at ht; simp only [evalF] at h
    obtain ⟨a, h1, h⟩ := exc_bind_ok h
    obtain ⟨b, h2, h⟩ := exc_bind_ok h
    cases h
    obtain ⟨l', hl, tl, hl2⟩ := propF_ok ha he l a ht.1 h1
    obtain ⟨r', hr, tr, hr2⟩ := propF_ok ha he r b ht.2 h2
    simp only [propF, hl, hr]
    exact ⟨_, rfl, ty_foldSub tl tr, ev_foldSub hl2.1 hr2.1, ev_foldSub hl2.2 hr2.2⟩
  | .mult l r, v, ht, h => by
    simp only [TyF] at ht; simp only [evalF] at h
    obtain ⟨a, h1, h⟩ := exc_bind_ok h
    obtain ⟨b, h2, h⟩ := exc_bind_ok h
    cases h
    obtain ⟨l', hl, tl, hl2⟩ := propF_ok ha he l a ht.1 h1
    obtain ⟨r', hr, tr, hr2⟩ := propF_ok ha he r b ht.2 h2
    simp only [propF, hl, hr]
    exact ⟨_, rfl, ty_foldMult tl tr, ev_foldMult hl2.1 hr2.1, ev_foldMult hl2.2 hr2.2⟩
  | .div l r, v, ht, h => by
    simp only [TyF] at ht; simp only [evalF] at h
    obtain ⟨a, h1, h⟩ := exc_bind_ok h
    obtain ⟨b, h2, h⟩ := exc_bind_ok h
    split at h
    · cases h
    rename_i hb0
    cases h
    obtain ⟨l', hl, tl, hl2⟩ := propF_ok ha he l a ht.1 h1
    obtain ⟨r', hr, tr, hr2⟩ := propF_ok ha he r b ht.2 h2
    simp only [propF, hl, hr]
    obtain ⟨e, h3, h4⟩ := ev_foldDiv hl2.1 hr2.1 hb0
    obtain ⟨e', h3', h5⟩ := ev_foldDiv hl2.2 hr2.2 hb0
    rw [h3] at h3'; cases h3'
    exact ⟨e, h3, ty_foldDiv tl tr h3, h4, h5⟩
  | .pow b n, v, ht, h => by
    simp only [TyF] at ht; simp only [evalF] at h
    obtain ⟨a, h1, h⟩ := exc_bind_ok h
    obtain ⟨k, h2, h⟩ := exc_bind_ok h
    cases h
    obtain ⟨l', hl, tl, hl2⟩ := propF_ok ha he b a ht.1 h1
    obtain ⟨r', hr, tr, hw, hr2⟩ := propU_ok ha he n k ht.2.1 h2
    simp only [propF, hl, hr]
    have e1 := hr2.1; rw [evalU_eq, hw, ht.2.2] at e1
    have e2 := hr2.2; rw [evalU_eq, hw, ht.2.2] at e2
    have tr' := ((tyU_iff r').1 tr).2; rw [hw, ht.2.2] at tr'
    exact ⟨_, rfl, ty_foldPow tl tr', ev_foldPow hl2.1 e1, ev_foldPow hl2.2 e2⟩
  | .and _ _, v, _, h => by simp only [evalF] at h; cases h
  | .or _ _, v, _, h => by simp only [evalF] at h; cases h
  | .xor _ _, v, _, h => by simp only [evalF] at h; cases h
  | .leftShift _ _, v, _, h => by simp only [evalF] at h; cases h
  | .rightShift _ _, v, _, h => by simp only [evalF] at h; cases h
  | .cond b t e, v, ht, h => by
    simp only [TyF] at ht; simp only [evalF] at h
    obtain ⟨q, h0, h⟩ := exc_bind_ok h
    obtain ⟨x, h1, h⟩ := exc_bind_ok h
    obtain ⟨y, h2, h⟩ := exc_bind_ok h
    cases h
    obtain ⟨b', hb, tb, hb2⟩ := propB_ok ha he b q ht.1 h0
    obtain ⟨t', hl, tl, hl2⟩ := propF_ok ha he t x ht.2.1 h1
    obtain ⟨e', hr, tr, hr2⟩ := propF_ok ha he e y ht.2.2 h2
    simp only [propF, hb]
    simp only [exc_ok_bind]
    split
    · rename_i hq; have hq' := ev_bval hq hb2.1; subst hq'; exact ⟨t', hl, tl, hl2⟩
    · rename_i hq; have hq' := ev_bval hq hb2.1; subst hq'; exact ⟨e', hr, tr, hr2⟩
    · rw [hl, hr]
      refine ⟨_, rfl, ?_, ?_⟩
      · split
        · exact tl
        · simp only [TyF]; exact ⟨tb, tl, tr⟩
      split
      · rename_i hbeq
        have := FExpr.eq_of_beq _ _ hbeq; subst this
        have hxy := ev_inj hl2.1 hr2.1 rfl; subst hxy
        rw [ite_self]; exact hl2
      · simp only [R2, evalF]
        exact ⟨hb2.1.bind (hl2.1.bind (hr2.1.bind (.ok _))), hb2.2.bind (hl2.2.bind (hr2.2.bind (.ok _)))⟩

theorem propFs_ok (ha : Agree S c env env') (he : UintsFit env) : ∀ (l : List (FExpr (ZMod p))) (vs : List (ZMod p)), TyFs l → evalFs env l = .ok vs →
    ∃ l', propFs c l = .ok l' ∧ (∀ e ∈ l', TyF e) ∧ List.Forall₂ (fun e v => R2 S (evalF env e) (evalF env' e) v) l' vs
  | [], vs, _, h => by simp only [evalFs] at h; cases h; exact ⟨[], by simp only [propFs], by simp, .nil⟩
  | e :: es, vs, ht, h => by
    simp only [TyFs] at ht; simp only [evalFs] at h
    obtain ⟨v, hv, h⟩ := exc_bind_ok h
    obtain ⟨vs', hvs, h⟩ := exc_bind_ok h
    cases h
    obtain ⟨e', h1, t1, h2⟩ := propF_ok ha he e v ht.1 hv
    obtain ⟨es', h3, t2, h4⟩ := propFs_ok ha he es vs' ht.2 hvs
    simp only [propFs, h1, h3]
    exact ⟨_, rfl, List.forall_mem_cons.2 ⟨t1, t2⟩, .cons h2 h4⟩

theorem propB_ok (ha : Agree S c env env') (he : UintsFit env) : ∀ (e : BExpr (ZMod p)) (v : Bool), TyB e → evalB env e = .ok v →
    ∃ e', propB c e = .ok e' ∧ TyB e' ∧ R2 S (evalB env e') (evalB env' e') v
  | .value n, v, ht, h => ⟨.value n, by simp only [propB], by simp only [TyB], by simp only [evalB] at h ⊢; exact ⟨.of_eq h, .of_eq h⟩⟩
  | .ident x, v, ht, h => by
    simp only [propB]
    rcases hc : c x with _ | w
    · refine ⟨_, rfl, by simp only [TyB], .of_eq h, ?_⟩
      simp only [evalB] at h ⊢
      rcases ha.other x hc with h' | ⟨hs, h'⟩
      · rw [h']; exact .of_eq h
      · rw [h']; exact .inr ⟨hs, rfl⟩
    · simp only [evalB] at h
      rw [ha.const x w hc] at h
      cases w with
      | bool v' => cases h; exact ⟨_, rfl, by simp only [TyB], .of_eq (by simp only [evalB]), .of_eq (by simp only [evalB])⟩
      | field b => cases h
      | uint w n => cases h
  | .select es i, v, ht, h => by
    simp only [TyB] at ht; simp only [evalB] at h
    obtain ⟨k, hk, h⟩ := exc_bind_ok h
    obtain ⟨vs, hvs, h⟩ := exc_bind_ok h
    obtain ⟨i', hi, ti, hw, hi2⟩ := propU_ok ha he i k ht.2.1 hk
    obtain ⟨es', hes, tes, hes2⟩ := propBs_ok ha he es vs ht.1 hvs
    simp only [propB, hi, hes]
    have hk2 := hi2.1; rw [evalU_eq] at hk2
    change ∃ e', (match uval? i'.inner with | some k => getElem es' k | none => .ok (.select es' i')) = _ ∧ _
    split
    · rename_i k' hk'
      have := ev_uval hk' hk2; subst this
      obtain ⟨e', he', hr⟩ := forall2_get hes2 k v (selectVal_mem h)
      exact ⟨e', getElem_ok he', tes e' (List.mem_of_getElem? he'), hr⟩
    · refine ⟨_, rfl, ?_, ?_, ?_⟩
      · simp only [TyB]; exact ⟨tyBs_of tes, ti, hw.trans ht.2.2⟩
      · simp only [evalB]
        exact hi2.1.bind ((ev_evalBs (hes2.imp fun _ _ h => h.1)).bind (ev_selectVal h))
      · simp only [evalB]
        exact hi2.2.bind ((ev_evalBs (hes2.imp fun _ _ h => h.2)).bind (ev_selectVal h))
  | .fieldLt l r, v, ht, h => by
    simp only [TyB] at ht; simp only [evalB] at h
    obtain ⟨a, h1, h⟩ := exc_bind_ok h
    obtain ⟨b, h2, h⟩ := exc_bind_ok h
    split at h
    · rename_i hd
      cases h
      obtain ⟨l', hl, tl, hl2⟩ := propF_ok ha he l a ht.1 h1
      obtain ⟨r', hr, tr, hr2⟩ := propF_ok ha he r b ht.2 h2
      have c1 : l.isConst = true → l'.isConst = true := fun h => isConst_prop hl h
      have c2 : r.isConst = true → r'.isConst = true := fun h => isConst_prop hr h
      simp only [propB, hl, hr]
      exact ⟨_, rfl, ty_foldFieldLt tl tr, ev_foldFieldLt hl2.1 hr2.1 c1 c2 hd, ev_foldFieldLt hl2.2 hr2.2 c1 c2 hd⟩
    · cases h
  | .fieldLe l r, v, ht, h => by
    simp only [TyB] at ht; simp only [evalB] at h
    obtain ⟨a, h1, h⟩ := exc_bind_ok h
    obtain ⟨b, h2, h⟩ := exc_bind_ok h
    split at h
    · rename_i hd
      cases h
      obtain ⟨l', hl, tl, hl2⟩ := propF_ok ha he l a ht.1 h1
      obtain ⟨r', hr, tr, hr2⟩ := propF_ok ha he r b ht.2 h2
      have c1 : l.isConst = true → l'.isConst = true := fun h => isConst_prop hl h
      have c2 : r.isConst = true → r'.isConst = true := fun h => isConst_prop hr h
      simp only [propB, hl, hr]
      exact ⟨_, rfl, ty_foldFieldLe tl tr, ev_foldFieldLe hl2.1 hr2.1 c1 c2 hd, ev_foldFieldLe hl2.2 hr2.2 c1 c2 hd⟩
    · cases h
  | .fieldEq l r, v, ht, h => by
    simp only [TyB] at ht; simp only [evalB] at h
    obtain ⟨a, h1, h⟩ := exc_bind_ok h
    obtain ⟨b, h2, h⟩ := exc_bind_ok h
    cases h
    obtain ⟨l', hl, tl, hl2⟩ := propF_ok ha he l a ht.1 h1
    obtain ⟨r', hr, tr, hr2⟩ := propF_ok ha he r b ht.2 h2
    simp only [propB, hl, hr]
    exact ⟨_, rfl, ty_foldFieldEq tl tr, ev_foldFieldEq hl2.1 hr2.1 (fun h => ev_inj hl2.1 hr2.1 (by rw [h])), ev_foldFieldEq hl2.2 hr2.2 (fun h => ev_inj hl2.1 hr2.1 (by rw [h]))⟩
  | .uintLt l r, v, ht, h => by
    simp only [TyB] at ht; simp only [evalB] at h
    obtain ⟨a, h1, h⟩ := exc_bind_ok h
    obtain ⟨b, h2, h⟩ := exc_bind_ok h
    cases h
    obtain ⟨l', hl, tl, hw, hl2⟩ := propU_ok ha he l a ht.1 h1
    obtain ⟨r', hr, tr, hw2, hr2⟩ := propU_ok ha he r b ht.2.1 h2
    simp only [propB, hl, hr]
    exact ⟨_, rfl, ty_foldUintLt tl tr (by rw [hw, hw2, ht.2.2]), ev_foldUintLt hl2.1 hr2.1 , ev_foldUintLt hl2.2 hr2.2 ⟩
  | .uintLe l r, v, ht, h => by
    simp only [TyB] at ht; simp only [evalB] at h
    obtain ⟨a, h1, h⟩ := exc_bind_ok h
    obtain ⟨b, h2, h⟩ := exc_bind_ok h
    cases h
    obtain ⟨l', hl, tl, hw, hl2⟩ := propU_ok ha he l a ht.1 h1
    obtain ⟨r', hr, tr, hw2, hr2⟩ := propU_ok ha he r b ht.2.1 h2
    simp only [propB, hl, hr]
    exact ⟨_, rfl, ty_foldUintLe tl tr (by rw [hw, hw2, ht.2.2]), ev_foldUintLe hl2.1 hr2.1 , ev_foldUintLe hl2.2 hr2.2 ⟩
  | .uintEq l r, v, ht, h => by
    simp only [TyB] at ht; simp only [evalB] at h
    obtain ⟨a, h1, h⟩ := exc_bind_ok h
    obtain ⟨b, h2, h⟩ := exc_bind_ok h
    cases h
    obtain ⟨l', hl, tl, hw, hl2⟩ := propU_ok ha he l a ht.1 h1
    obtain ⟨r', hr, tr, hw2, hr2⟩ := propU_ok ha he r b ht.2.1 h2
    simp only [propB, hl, hr]
    exact ⟨_, rfl, ty_foldUintEq tl tr (by rw [hw, hw2, ht.2.2]), ev_foldUintEq hl2.1 hr2.1 (fun h => ev_inj hl2.1 hr2.1 (by rw [h])), ev_foldUintEq hl2.2 hr2.2 (fun h => ev_inj hl2.1 hr2.1 (by rw [h]))⟩
  | .boolEq l r, v, ht, h => by
    simp only [TyB] at ht; simp only [evalB] at h
    obtain ⟨a, h1, h⟩ := exc_bind_ok h
    obtain ⟨b, h2, h⟩ := exc_bind_ok h
    cases h
    obtain ⟨l', hl, tl, hl2⟩ := propB_ok ha he l a ht.1 h1
    obtain ⟨r', hr, tr, hr2⟩ := propB_ok ha he r b ht.2 h2
    simp only [propB, hl, hr]
    exact ⟨_, rfl, ty_foldBoolEq tl tr, ev_foldBoolEq hl2.1 hr2.1 (fun h => ev_inj hl2.1 hr2.1 (by rw [h])), ev_foldBoolEq hl2.2 hr2.2 (fun h => ev_inj hl2.1 hr2.1 (by rw [h]))⟩
  | .or l r, v, ht, h => by
    simp only [TyB] at ht; simp only [evalB] at h
    obtain ⟨a, h1, h⟩ := exc_bind_ok h
    obtain ⟨b, h2, h⟩ := exc_bind_ok h
    cases h
    obtain ⟨l', hl, tl, hl2⟩ := propB_ok ha he l a ht.1 h1
    obtain ⟨r', hr, tr, hr2⟩ := propB_ok ha he r b ht.2 h2
    simp only [propB, hl, hr]
    exact ⟨_, rfl, ty_foldBOr tl tr, ev_foldBOr hl2.1 hr2.1 , ev_foldBOr hl2.2 hr2.2 ⟩
  | .and l r, v, ht, h => by
    simp only [TyB] at ht; simp only [evalB] at h
    obtain ⟨a, h1, h⟩ := exc_bind_ok h
    obtain ⟨b, h2, h⟩ := exc_bind_ok h
    cases h
    obtain ⟨l', hl, tl, hl2⟩ := propB_ok ha he l a ht.1 h1
    obtain ⟨r', hr, tr, hr2⟩ := propB_ok ha he r b ht.2 h2
    simp only [propB, hl, hr]
    exact ⟨_, rfl, ty_foldBAnd tl tr, ev_foldBAnd hl2.1 hr2.1 , ev_foldBAnd hl2.2 hr2.2 ⟩
  | .not l, v, ht, h => by
    simp only [TyB] at ht; simp only [evalB] at h
    obtain ⟨a, h1, h⟩ := exc_bind_ok h
    cases h
    obtain ⟨l', hl, tl, hl2⟩ := propB_ok ha he l a ht h1
    simp only [propB, hl]
    exact ⟨_, rfl, ty_foldNot tl, ev_foldNot hl2.1, ev_foldNot hl2.2⟩
  | .cond b t e, v, ht, h => by
    simp only [TyB] at ht; simp only [evalB] at h
    obtain ⟨q, h0, h⟩ := exc_bind_ok h
    obtain ⟨x, h1, h⟩ := exc_bind_ok h
    obtain ⟨y, h2, h⟩ := exc_bind_ok h
    cases h
    obtain ⟨b', hb, tb, hb2⟩ := propB_ok ha he b q ht.1 h0
    obtain ⟨t', hl, tl, hl2⟩ := propB_ok ha he t x ht.2.1 h1
    obtain ⟨e', hr, tr, hr2⟩ := propB_ok ha he e y ht.2.2 h2
    simp only [propB, hb]
    simp only [exc_ok_bind]
    split
    · rename_i hq; have hq' := ev_bval hq hb2.1; subst hq'; exact ⟨t', hl, tl, hl2⟩
    · rename_i hq; have hq' := ev_bval hq hb2.1; subst hq'; exact ⟨e', hr, tr, hr2⟩
    · rw [hl, hr]
      refine ⟨_, rfl, ?_, ?_⟩
      · split
        · exact tl
        · simp only [TyB]; exact ⟨tb, tl, tr⟩
      split
      · rename_i hbeq
        have := BExpr.eq_of_beq _ _ hbeq; subst this
        have hxy := ev_inj hl2.1 hr2.1 rfl; subst hxy
        rw [ite_self]; exact hl2
      · simp only [R2, evalB]
        exact ⟨hb2.1.bind (hl2.1.bind (hr2.1.bind (.ok _))), hb2.2.bind (hl2.2.bind (hr2.2.bind (.ok _)))⟩

theorem propBs_ok (ha : Agree S c env env') (he : UintsFit env) : ∀ (l : List (BExpr (ZMod p))) (vs : List Bool), TyBs l → evalBs env l = .ok vs →
    ∃ l', propBs c l = .ok l' ∧ (∀ e ∈ l', TyB e) ∧ List.Forall₂ (fun e v => R2 S (evalB env e) (evalB env' e) v) l' vs
  | [], vs, _, h => by simp only [evalBs] at h; cases h; exact ⟨[], by simp only [propBs], by simp, .nil⟩
  | e :: es, vs, ht, h => by
    simp only [TyBs] at ht; simp only [evalBs] at h
    obtain ⟨v, hv, h⟩ := exc_bind_ok h
    obtain ⟨vs', hvs, h⟩ := exc_bind_ok h
    cases h
    obtain ⟨e', h1, t1, h2⟩ := propB_ok ha he e v ht.1 hv
    obtain ⟨es', h3, t2, h4⟩ := propBs_ok ha he es vs' ht.2 hvs
    simp only [propBs, h1, h3]
    exact ⟨_, rfl, List.forall_mem_cons.2 ⟨t1, t2⟩, .cons h2 h4⟩

theorem propU_ok (ha : Agree S c env env') (he : UintsFit env) : ∀ (e : UExpr (ZMod p)) (v : ℕ), TyU e → evalU env e = .ok v →
    ∃ e', propU c e = .ok e' ∧ TyU e' ∧ e'.width = e.width ∧ R2 S (evalU env e') (evalU env' e') v
  | .mk w m i, v, ht, h => by
    simp only [TyU] at ht; simp only [evalU] at h
    obtain ⟨i', hi, ti, hi2⟩ := propUI_ok ha he w i v ht.1 ht.2 h
    simp only [propU, hi]
    refine ⟨_, rfl, by simp only [TyU]; exact ⟨ht.1, ti⟩, rfl, ?_⟩
    simp only [evalU]; exact hi2

theorem propUs_ok (ha : Agree S c env env') (he : UintsFit env) (w : ℕ) : ∀ (l : List (UExpr (ZMod p))) (vs : List ℕ), TyUs w l → evalUs env l = .ok vs →
    ∃ l', propUs c l = .ok l' ∧ (∀ e ∈ l', TyU e ∧ e.width = w) ∧ List.Forall₂ (fun e v => R2 S (evalU env e) (evalU env' e) v) l' vs
  | [], vs, _, h => by simp only [evalUs] at h; cases h; exact ⟨[], by simp only [propUs], by simp, .nil⟩
  | e :: es, vs, ht, h => by
    simp only [TyUs] at ht; simp only [evalUs] at h
    obtain ⟨v, hv, h⟩ := exc_bind_ok h
    obtain ⟨vs', hvs, h⟩ := exc_bind_ok h
    cases h
    obtain ⟨e', h1, t1, hw, h2⟩ := propU_ok ha he e v ht.1.1 hv
    obtain ⟨es', h3, hws, h4⟩ := propUs_ok ha he w es vs' ht.2 hvs
    simp only [propUs, h1, h3]
    exact ⟨_, rfl, List.forall_mem_cons.2 ⟨⟨t1, hw.trans ht.1.2⟩, hws⟩, .cons h2 h4⟩

theorem propUI_ok (ha : Agree S c env env') (he : UintsFit env) (w : ℕ) : ∀ (e : UInner (ZMod p)) (v : ℕ), w ≤ 64 → TyUI w e → evalUI env w e = .ok v →
    ∃ e', propUI c w e = .ok e' ∧ TyUI w e' ∧ R2 S (evalUI env w e') (evalUI env' w e') v
  | .value n, v, hw, ht, h => ⟨.value n, by simp only [propUI], ht, by simp only [evalUI] at h ⊢; exact ⟨.of_eq h, .of_eq h⟩⟩
  | .ident x, v, hw, ht, h => by
    have hlt := evalUI_lt he w (.ident x) v ht h
    simp only [propUI]
    rcases hc : c x with _ | w'
    · refine ⟨_, rfl, by simp only [TyUI], .of_eq h, ?_⟩
      simp only [evalUI] at h ⊢
      rcases ha.other x hc with h' | ⟨hs, h'⟩
      · rw [h']; exact .of_eq h
      · rw [h']; exact .inr ⟨hs, rfl⟩
    · simp only [evalUI] at h
      rw [ha.const x w' hc] at h
      cases w' with
      | field v' => cases h
      | bool b => cases h
      | uint w' n =>
        dsimp only at h
        split at h
        · cases h; exact ⟨_, rfl, by simpa only [TyUI] using hlt, .of_eq (by simp only [evalUI]), .of_eq (by simp only [evalUI])⟩
        · cases h
  | .select es i, v, hw, ht, h => by
    simp only [TyUI] at ht; simp only [evalUI] at h
    obtain ⟨k, hk, h⟩ := exc_bind_ok h
    obtain ⟨vs, hvs, h⟩ := exc_bind_ok h
    obtain ⟨i', hi, ti, hw', hi2⟩ := propU_ok ha he i k ht.2.1 hk
    obtain ⟨es', hes, hws, hes2⟩ := propUs_ok ha he w es vs ht.1 hvs
    simp only [propUI, hi, hes]
    have hk2 := hi2.1; rw [evalU_eq] at hk2
    change ∃ e', (match uval? i'.inner with | some k => (getElem es' k >>= fun e => .ok e.inner) | none => .ok (.select es' i')) = _ ∧ _
    split
    · rename_i k' hk'
      have := ev_uval hk' hk2; subst this
      obtain ⟨e', he', hr⟩ := forall2_get hes2 k v (selectVal_mem h)
      rw [getElem_ok he']
      have hm := hws e' (List.mem_of_getElem? he')
      have ht' := ((tyU_iff e').1 hm.1).2
      rw [hm.2] at ht'
      refine ⟨e'.inner, rfl, ht', ?_⟩
      rw [evalU_eq, evalU_eq, hm.2] at hr
      exact hr
    · refine ⟨_, rfl, ?_, ?_, ?_⟩
      · simp only [TyUI]; exact ⟨tyUs_of hws, ti, hw'.trans ht.2.2⟩
      · simp only [evalUI]
        exact hi2.1.bind ((ev_evalUs (hes2.imp fun _ _ h => h.1)).bind (ev_selectVal h))
      · simp only [evalUI]
        exact hi2.2.bind ((ev_evalUs (hes2.imp fun _ _ h => h.2)).bind (ev_selectVal h))
  | .add l r, v, hw, ht, h => by
    have hv := evalUI_lt he w _ v ht h
    simp only [TyUI] at ht; simp only [evalUI] at h
    obtain ⟨a, h1, h⟩ := exc_bind_ok h
    obtain ⟨b, h2, h⟩ := exc_bind_ok h
    cases h
    have hal := evalU_lt he l a ht.1 h1
    have hbl := evalU_lt he r b ht.2.1 h2
    obtain ⟨l', hl, tl, hwl, hl2⟩ := propU_ok ha he l a ht.1 h1
    obtain ⟨r', hr, tr, hwr, hr2⟩ := propU_ok ha he r b ht.2.1 h2
    rw [ht.2.2.1] at hal hwl
    rw [ht.2.2.2] at hbl hwr
    simp only [R2, evalU_eq, hwl] at hl2
    simp only [R2, evalU_eq, hwr] at hr2
    have tl' := ((tyU_iff l').1 tl).2; rw [hwl] at tl'
    have tr' := ((tyU_iff r').1 tr).2; rw [hwr] at tr'
    have hev := ev_foldUAdd hl2.1 hr2.1 hal hbl
    simp only [propUI, hl, hr]
    exact ⟨_, rfl, ty_of_val hv hev (ty_foldUAdd hw tl' tr'), hev, ev_foldUAdd hl2.2 hr2.2 hal hbl⟩
  | .sub l r, v, hw, ht, h => by
    have hv := evalUI_lt he w _ v ht h
    simp only [TyUI] at ht; simp only [evalUI] at h
    obtain ⟨a, h1, h⟩ := exc_bind_ok h
    obtain ⟨b, h2, h⟩ := exc_bind_ok h
    cases h
    have hal := evalU_lt he l a ht.1 h1
    have hbl := evalU_lt he r b ht.2.1 h2
    obtain ⟨l', hl, tl, hwl, hl2⟩ := propU_ok ha he l a ht.1 h1
    obtain ⟨r', hr, tr, hwr, hr2⟩ := propU_ok ha he r b ht.2.1 h2
    rw [ht.2.2.1] at hal hwl
    rw [ht.2.2.2] at hbl hwr
    simp only [R2, evalU_eq, hwl] at hl2
    simp only [R2, evalU_eq, hwr] at hr2
    have tl' := ((tyU_iff l').1 tl).2; rw [hwl] at tl'
    have tr' := ((tyU_iff r').1 tr).2; rw [hwr] at tr'
    have hev := ev_foldUSub hl2.1 hr2.1 hw hal hbl
    simp only [propUI, hl, hr]
    exact ⟨_, rfl, ty_of_val hv hev (ty_foldUSub hw tl' tr'), hev, ev_foldUSub hl2.2 hr2.2 hw hal hbl⟩
  | .mult l r, v, hw, ht, h => by
    have hv := evalUI_lt he w _ v ht h
    simp only [TyUI] at ht; simp only [evalUI] at h
    obtain ⟨a, h1, h⟩ := exc_bind_ok h
    obtain ⟨b, h2, h⟩ := exc_bind_ok h
    cases h
    have hal := evalU_lt he l a ht.1 h1
    have hbl := evalU_lt he r b ht.2.1 h2
    obtain ⟨l', hl, tl, hwl, hl2⟩ := propU_ok ha he l a ht.1 h1
    obtain ⟨r', hr, tr, hwr, hr2⟩ := propU_ok ha he r b ht.2.1 h2
    rw [ht.2.2.1] at hal hwl
    rw [ht.2.2.2] at hbl hwr
    simp only [R2, evalU_eq, hwl] at hl2
    simp only [R2, evalU_eq, hwr] at hr2
    have tl' := ((tyU_iff l').1 tl).2; rw [hwl] at tl'
    have tr' := ((tyU_iff r').1 tr).2; rw [hwr] at tr'
    have hev := ev_foldUMult hl2.1 hr2.1 hal hbl
    simp only [propUI, hl, hr]
    exact ⟨_, rfl, ty_of_val hv hev (ty_foldUMult hw tl' tr'), hev, ev_foldUMult hl2.2 hr2.2 hal hbl⟩
  | .div l r, v, hw, ht, h => by
    have hv := evalUI_lt he w _ v ht h
    simp only [TyUI] at ht; simp only [evalUI] at h
    obtain ⟨a, h1, h⟩ := exc_bind_ok h
    obtain ⟨b, h2, h⟩ := exc_bind_ok h
    split at h
    · cases h
    rename_i hb0
    cases h
    have hal := evalU_lt he l a ht.1 h1
    obtain ⟨l', hl, tl, hwl, hl2⟩ := propU_ok ha he l a ht.1 h1
    obtain ⟨r', hr, tr, hwr, hr2⟩ := propU_ok ha he r b ht.2.1 h2
    rw [ht.2.2.1] at hal hwl
    rw [ht.2.2.2] at hwr
    simp only [R2, evalU_eq, hwl] at hl2
    simp only [R2, evalU_eq, hwr] at hr2
    have tl' := ((tyU_iff l').1 tl).2; rw [hwl] at tl'
    have tr' := ((tyU_iff r').1 tr).2; rw [hwr] at tr'
    simp only [propUI, hl, hr]
    obtain ⟨e, h3, h4⟩ := ev_foldUDiv hl2.1 hr2.1 hal hb0
    obtain ⟨e', h3', h5⟩ := ev_foldUDiv hl2.2 hr2.2 hal hb0
    rw [h3] at h3'; cases h3'
    exact ⟨e, h3, ty_of_val hv h4 (ty_foldUDiv hw tl' tr' h3), h4, h5⟩
  | .rem l r, v, hw, ht, h => by
    have hv := evalUI_lt he w _ v ht h
    simp only [TyUI] at ht; simp only [evalUI] at h
    obtain ⟨a, h1, h⟩ := exc_bind_ok h
    obtain ⟨b, h2, h⟩ := exc_bind_ok h
    split at h
    · cases h
    rename_i hb0
    cases h
    have hal := evalU_lt he l a ht.1 h1
    obtain ⟨l', hl, tl, hwl, hl2⟩ := propU_ok ha he l a ht.1 h1
    obtain ⟨r', hr, tr, hwr, hr2⟩ := propU_ok ha he r b ht.2.1 h2
    rw [ht.2.2.1] at hal hwl
    rw [ht.2.2.2] at hwr
    simp only [R2, evalU_eq, hwl] at hl2
    simp only [R2, evalU_eq, hwr] at hr2
    have tl' := ((tyU_iff l').1 tl).2; rw [hwl] at tl'
    have tr' := ((tyU_iff r').1 tr).2; rw [hwr] at tr'
    simp only [propUI, hl, hr]
    obtain ⟨e, h3, h4⟩ := ev_foldURem hl2.1 hr2.1 hal hb0
    obtain ⟨e', h3', h5⟩ := ev_foldURem hl2.2 hr2.2 hal hb0
    rw [h3] at h3'; cases h3'
    exact ⟨e, h3, ty_of_val hv h4 (ty_foldURem hw tl' tr' h3), h4, h5⟩
  | .xor l r, v, hw, ht, h => by
    have hv := evalUI_lt he w _ v ht h
    simp only [TyUI] at ht; simp only [evalUI] at h
    obtain ⟨a, h1, h⟩ := exc_bind_ok h
    obtain ⟨b, h2, h⟩ := exc_bind_ok h
    cases h
    have hal := evalU_lt he l a ht.1 h1
    have hbl := evalU_lt he r b ht.2.1 h2
    obtain ⟨l', hl, tl, hwl, hl2⟩ := propU_ok ha he l a ht.1 h1
    obtain ⟨r', hr, tr, hwr, hr2⟩ := propU_ok ha he r b ht.2.1 h2
    rw [ht.2.2.1] at hal hwl
    rw [ht.2.2.2] at hbl hwr
    simp only [R2, evalU_eq, hwl] at hl2
    simp only [R2, evalU_eq, hwr] at hr2
    have tl' := ((tyU_iff l').1 tl).2; rw [hwl] at tl'
    have tr' := ((tyU_iff r').1 tr).2; rw [hwr] at tr'
    have hev := ev_foldUXor hl2.1 hr2.1 (fun h => ev_inj hl2.1 hr2.1 (by rw [h]))
    simp only [propUI, hl, hr]
    exact ⟨_, rfl, ty_of_val hv hev (ty_foldUXor hw tl' tr'), hev, ev_foldUXor hl2.2 hr2.2 (fun h => ev_inj hl2.1 hr2.1 (by rw [h]))⟩
  | .and l r, v, hw, ht, h => by
    have hv := evalUI_lt he w _ v ht h
    simp only [TyUI] at ht; simp only [evalUI] at h
    obtain ⟨a, h1, h⟩ := exc_bind_ok h
    obtain ⟨b, h2, h⟩ := exc_bind_ok h
    cases h
    have hal := evalU_lt he l a ht.1 h1
    have hbl := evalU_lt he r b ht.2.1 h2
    obtain ⟨l', hl, tl, hwl, hl2⟩ := propU_ok ha he l a ht.1 h1
    obtain ⟨r', hr, tr, hwr, hr2⟩ := propU_ok ha he r b ht.2.1 h2
    rw [ht.2.2.1] at hal hwl
    rw [ht.2.2.2] at hbl hwr
    simp only [R2, evalU_eq, hwl] at hl2
    simp only [R2, evalU_eq, hwr] at hr2
    have tl' := ((tyU_iff l').1 tl).2; rw [hwl] at tl'
    have tr' := ((tyU_iff r').1 tr).2; rw [hwr] at tr'
    have hev := ev_foldUAnd hl2.1 hr2.1 hal hbl
    simp only [propUI, hl, hr]
    exact ⟨_, rfl, ty_of_val hv hev (ty_foldUAnd hw tl' tr'), hev, ev_foldUAnd hl2.2 hr2.2 hal hbl⟩
  | .or l r, v, hw, ht, h => by
    have hv := evalUI_lt he w _ v ht h
    simp only [TyUI] at ht; simp only [evalUI] at h
    obtain ⟨a, h1, h⟩ := exc_bind_ok h
    obtain ⟨b, h2, h⟩ := exc_bind_ok h
    cases h
    have hal := evalU_lt he l a ht.1 h1
    have hbl := evalU_lt he r b ht.2.1 h2
    obtain ⟨l', hl, tl, hwl, hl2⟩ := propU_ok ha he l a ht.1 h1
    obtain ⟨r', hr, tr, hwr, hr2⟩ := propU_ok ha he r b ht.2.1 h2
    rw [ht.2.2.1] at hal hwl
    rw [ht.2.2.2] at hbl hwr
    simp only [R2, evalU_eq, hwl] at hl2
    simp only [R2, evalU_eq, hwr] at hr2
    have tl' := ((tyU_iff l').1 tl).2; rw [hwl] at tl'
    have tr' := ((tyU_iff r').1 tr).2; rw [hwr] at tr'
    have hev := ev_foldUOr hl2.1 hr2.1 hal hbl
    simp only [propUI, hl, hr]
    exact ⟨_, rfl, ty_of_val hv hev (ty_foldUOr hw tl' tr'), hev, ev_foldUOr hl2.2 hr2.2 hal hbl⟩
  | .leftShift l r, v, hw, ht, h => by
    have hv := evalUI_lt he w _ v ht h
    simp only [TyUI] at ht; simp only [evalUI] at h
    obtain ⟨a, h1, h⟩ := exc_bind_ok h
    obtain ⟨b, h2, h⟩ := exc_bind_ok h
    cases h
    have hal := evalU_lt he l a ht.1 h1
    have hbl := evalU_lt he r b ht.2.1 h2
    obtain ⟨l', hl, tl, hwl, hl2⟩ := propU_ok ha he l a ht.1 h1
    obtain ⟨r', hr, tr, hwr, hr2⟩ := propU_ok ha he r b ht.2.1 h2
    rw [ht.2.2.1] at hal hwl
    rw [ht.2.2.2] at hbl hwr
    simp only [R2, evalU_eq, hwl] at hl2
    simp only [R2, evalU_eq, hwr] at hr2
    have tl' := ((tyU_iff l').1 tl).2; rw [hwl] at tl'
    have tr' := ((tyU_iff r').1 tr).2; rw [hwr] at tr'
    have hev := ev_foldULeftShift hl2.1 hr2.1 hal hbl
    simp only [propUI, hl, hr]
    exact ⟨_, rfl, ty_of_val hv hev (ty_foldULeftShift hw tl' tr'), hev, ev_foldULeftShift hl2.2 hr2.2 hal hbl⟩
  | .rightShift l r, v, hw, ht, h => by
    have hv := evalUI_lt he w _ v ht h
    simp only [TyUI] at ht; simp only [evalUI] at h
    obtain ⟨a, h1, h⟩ := exc_bind_ok h
    obtain ⟨b, h2, h⟩ := exc_bind_ok h
    cases h
    have hal := evalU_lt he l a ht.1 h1
    have hbl := evalU_lt he r b ht.2.1 h2
    obtain ⟨l', hl, tl, hwl, hl2⟩ := propU_ok ha he l a ht.1 h1
    obtain ⟨r', hr, tr, hwr, hr2⟩ := propU_ok ha he r b ht.2.1 h2
    rw [ht.2.2.1] at hal hwl
    rw [ht.2.2.2] at hbl hwr
    simp only [R2, evalU_eq, hwl] at hl2
    simp only [R2, evalU_eq, hwr] at hr2
    have tl' := ((tyU_iff l').1 tl).2; rw [hwl] at tl'
    have tr' := ((tyU_iff r').1 tr).2; rw [hwr] at tr'
    have hev := ev_foldURightShift hl2.1 hr2.1 hal hbl
    simp only [propUI, hl, hr]
    exact ⟨_, rfl, ty_of_val hv hev (ty_foldURightShift hw tl' tr'), hev, ev_foldURightShift hl2.2 hr2.2 hal hbl⟩
  | .not l, v, hw, ht, h => by
    have hv := evalUI_lt he w _ v ht h
    simp only [TyUI] at ht; simp only [evalUI] at h
    obtain ⟨a, h1, h⟩ := exc_bind_ok h
    cases h
    have hal := evalU_lt he l a ht.1 h1
    obtain ⟨l', hl, tl, hwl, hl2⟩ := propU_ok ha he l a ht.1 h1
    rw [ht.2] at hal hwl
    simp only [R2, evalU_eq, hwl] at hl2
    have tl' := ((tyU_iff l').1 tl).2; rw [hwl] at tl'
    have hev := ev_foldUNot hl2.1 hw hal
    simp only [propUI, hl]
    exact ⟨_, rfl, ty_of_val hv hev (ty_foldUNot hw tl'), hev, ev_foldUNot hl2.2 hw hal⟩
  | .cond b t e, v, hw, ht, h => by
    simp only [TyUI] at ht; simp only [evalUI] at h
    obtain ⟨q, h0, h⟩ := exc_bind_ok h
    obtain ⟨x, h1, h⟩ := exc_bind_ok h
    obtain ⟨y, h2, h⟩ := exc_bind_ok h
    cases h
    obtain ⟨b', hb, tb, hb2⟩ := propB_ok ha he b q ht.1 h0
    obtain ⟨t', hl, tl, hwl, hl2⟩ := propU_ok ha he t x ht.2.1 h1
    obtain ⟨e', hr, tr, hwr, hr2⟩ := propU_ok ha he e y ht.2.2.1 h2
    rw [ht.2.2.2.1] at hwl
    rw [ht.2.2.2.2] at hwr
    have tl' := ((tyU_iff t').1 tl).2; rw [hwl] at tl'
    have tr' := ((tyU_iff e').1 tr).2; rw [hwr] at tr'
    have hl3 := hl2; have hr3 := hr2
    simp only [R2, evalU_eq, hwl] at hl3
    simp only [R2, evalU_eq, hwr] at hr3
    simp only [propUI, hb]
    simp only [exc_ok_bind]
    split
    · rename_i hq; have hq' := ev_bval hq hb2.1; subst hq'; rw [hl]; exact ⟨_, rfl, tl', hl3⟩
    · rename_i hq; have hq' := ev_bval hq hb2.1; subst hq'; rw [hr]; exact ⟨_, rfl, tr', hr3⟩
    · rw [hl, hr]
      refine ⟨_, rfl, ?_, ?_⟩
      · split
        · exact tl'
        · simp only [TyUI]; exact ⟨tb, tl, tr, hwl, hwr⟩
      split
      · rename_i hbeq
        have := UExpr.eq_of_beq _ _ hbeq; subst this
        have hxy := ev_inj hl2.1 hr2.1 rfl; subst hxy
        rw [ite_self]; exact hl3
      · simp only [R2, evalUI]
        exact ⟨hb2.1.bind (hl2.1.bind (hr2.1.bind (.ok _))), hb2.2.bind (hl2.2.bind (hr2.2.bind (.ok _)))⟩

end
end
end Zok.Prop'
