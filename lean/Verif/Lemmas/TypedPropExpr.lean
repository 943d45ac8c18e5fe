import Verif.Lemmas.TypedFoldWt

/-
Constant propagation on typed programs: folding an expression keeps its type and its value.
-/

set_option linter.unusedSectionVars false
set_option linter.unusedSimpArgs false

namespace Zok.Typed
open Abi
variable {p : ℕ} [Fact p.Prime]

/-- All constants are closed, well-typed and in canonical form. -/
def GoodC (C : Consts (ZMod p)) : Prop := ∀ x c, C x = some c → Good c

/-- The variables which are constants have their values in the source; the others have the same values in both programs. -/
structure EnvRel (C : Consts (ZMod p)) (env env' : TEnv p) : Prop where
  same : ∀ x, C x = none → env' x = env x
  const : ∀ x c, C x = some c → ∃ v, env x = some v ∧ Denotes c v

theorem typ_ite {C : Consts (ZMod p)} {x : TId} {t : CType} {e : TExpr (ZMod p)} (hC : GoodC C) (ht : TypeOk t) (h : propT C (.ident x t) = .ok e) : Typ e t [x] := by
  simp only [propT] at h
  split at h
  · rename_i c hc
    split at h
    · rename_i hty
      cases h
      refine ⟨hty, (hC x _ hc).wt, ?_⟩
      rw [canon_vars (hC x _ hc).canon]
      simp
    · cases h
  · cases h
    exact ⟨rfl, ht, by simp [TExpr.vars]⟩

mutual
/-- The result has the type of the source, and no new variables. -/
theorem propT_typed {C : Consts (ZMod p)} (hC : GoodC C) : ∀ (e e' : TExpr (ZMod p)), propT C e = .ok e' → e.Wt → Typ e' e.ty e.vars
  | .fval n, e', h, w => by simp only [propT] at h; cases h; exact typ_fval
  | .bval n, e', h, w => by simp only [propT] at h; cases h; exact typ_bval
  | .uval u n, e', h, w => by simp only [propT] at h; cases h; exact typ_uval w
  | .ident x t, e', h, w => by exact typ_ite hC w h
  | .fbin op l r, e', h, w => by
    simp only [propT] at h
    obtain ⟨l', h1, h⟩ := pbind_ok h
    obtain ⟨r', h2, h⟩ := pbind_ok h
    have i1 := propT_typed hC l l' h1 w.2.2.1
    have i2 := propT_typed hC r r' h2 w.2.2.2
    rw [w.1] at i1; rw [w.2.1] at i2
    exact foldF_typed i1 i2 h
  | .fubin op l r, e', h, w => by
    simp only [propT] at h
    obtain ⟨l', h1, h⟩ := pbind_ok h
    obtain ⟨r', h2, h⟩ := pbind_ok h
    have i1 := propT_typed hC l l' h1 w.2.2.1
    have i2 := propT_typed hC r r' h2 w.2.2.2
    rw [w.1] at i1; rw [w.2.1] at i2
    exact foldFU_typed i1 i2 h
  | .fneg l, e', h, w => by
    simp only [propT] at h
    obtain ⟨l', h1, h⟩ := pbind_ok h
    have i1 := propT_typed hC l l' h1 w.2
    rw [w.1] at i1
    cases h
    exact foldFneg_typed i1
  | .fpos l, e', h, w => by
    simp only [propT] at h
    obtain ⟨l', h1, h⟩ := pbind_ok h
    have i1 := propT_typed hC l l' h1 w.2
    rw [w.1] at i1
    cases h
    exact foldFpos_typed i1
  | .ubin u op l r, e', h, w => by
    simp only [propT] at h
    obtain ⟨l', h1, h⟩ := pbind_ok h
    obtain ⟨r', h2, h⟩ := pbind_ok h
    have i1 := propT_typed hC l l' h1 w.2.2.1
    have i2 := propT_typed hC r r' h2 w.2.2.2
    rw [w.1] at i1; rw [w.2.1] at i2
    exact foldU_typed i1 i2 h
  | .unot u l, e', h, w => by
    simp only [propT] at h
    obtain ⟨l', h1, h⟩ := pbind_ok h
    have i1 := propT_typed hC l l' h1 w.2
    rw [w.1] at i1
    cases h
    exact foldUnot_typed i1
  | .uneg u l, e', h, w => by
    simp only [propT] at h
    obtain ⟨l', h1, h⟩ := pbind_ok h
    have i1 := propT_typed hC l l' h1 w.2
    rw [w.1] at i1
    cases h
    exact foldUneg_typed i1
  | .upos u l, e', h, w => by
    simp only [propT] at h
    obtain ⟨l', h1, h⟩ := pbind_ok h
    have i1 := propT_typed hC l l' h1 w.2
    rw [w.1] at i1
    cases h
    exact foldUpos_typed i1
  | .bbin op l r, e', h, w => by
    simp only [propT] at h
    obtain ⟨l', h1, h⟩ := pbind_ok h
    obtain ⟨r', h2, h⟩ := pbind_ok h
    have i1 := propT_typed hC l l' h1 w.2.2.1
    have i2 := propT_typed hC r r' h2 w.2.2.2
    rw [w.1] at i1; rw [w.2.1] at i2
    cases h
    exact foldB_typed i1 i2
  | .bnot l, e', h, w => by
    simp only [propT] at h
    obtain ⟨l', h1, h⟩ := pbind_ok h
    have i1 := propT_typed hC l l' h1 w.2
    rw [w.1] at i1
    cases h
    exact foldNot_typed i1
  | .fcmp op l r, e', h, w => by
    simp only [propT] at h
    obtain ⟨l', h1, h⟩ := pbind_ok h
    obtain ⟨r', h2, h⟩ := pbind_ok h
    have i1 := propT_typed hC l l' h1 w.2.2.1
    have i2 := propT_typed hC r r' h2 w.2.2.2
    rw [w.1] at i1; rw [w.2.1] at i2
    cases h
    exact foldFcmp_typed i1 i2
  | .ucmp op l r, e', h, w => by
    simp only [propT] at h
    obtain ⟨l', h1, h⟩ := pbind_ok h
    obtain ⟨r', h2, h⟩ := pbind_ok h
    have i1 := propT_typed hC l l' h1 w.2.1
    have i2 := propT_typed hC r r' h2 w.2.2
    obtain ⟨⟨u, g1, g2⟩, _⟩ := w
    rw [g1] at i1; rw [g2] at i2
    cases h
    exact foldUcmp_typed i1 i2
  | .eq l r, e', h, w => by
    simp only [propT] at h
    obtain ⟨l', h1, h⟩ := pbind_ok h
    obtain ⟨r', h2, h⟩ := pbind_ok h
    have i1 := propT_typed hC l l' h1 w.2.2.1
    have i2 := propT_typed hC r r' h2 w.2.2.2
    rw [← w.1] at i2
    exact foldEq_typed w.2.1 i1 i2 h
  | .cond t c l r, e', h, w => by
    obtain ⟨t1, t2, t3, w1, w2, w3⟩ := w
    simp only [propT] at h
    obtain ⟨c', h1, h⟩ := pbind_ok h
    have i1 := propT_typed hC c c' h1 w1
    rw [t1] at i1
    simp only [TExpr.vars, TExpr.ty]
    split at h
    · have i2 := propT_typed hC l e' h w2
      rw [t2] at i2
      exact i2.right.left
    · have i2 := propT_typed hC r e' h w3
      rw [t3] at i2
      exact i2.right
    · obtain ⟨l', h2, h⟩ := pbind_ok h
      obtain ⟨r', h3, h⟩ := pbind_ok h
      have i2 := propT_typed hC l l' h2 w2
      have i3 := propT_typed hC r r' h3 w3
      rw [t2] at i2; rw [t3] at i3
      cases h
      exact foldCond_typed i1 i2 i3
  | .select t a i, e', h, w => by
    obtain ⟨⟨n, t1⟩, t2, w1, w2⟩ := w
    simp only [propT] at h
    obtain ⟨i', h1, hh⟩ := pbind_ok h
    clear h
    have h := hh
    clear hh
    have i1 := propT_typed hC i i' h1 w2
    rw [t2] at i1
    simp only [TExpr.vars, TExpr.ty]
    split at h
    · cases h
    · rename_i x ta k n' ha _ _
      have := identOf_some ha
      subst this
      split at h
      · rename_i c hc
        obtain ⟨g1, g2, _⟩ := selectConst_ok (hC x c hc) t1 h
        exact ⟨g2, g1.wt, by rw [canon_vars g1.canon]; simp⟩
      · cases h
        refine ⟨rfl, ⟨⟨n, t1⟩, i1.1, w1, i1.2.1⟩, fun y hy => ?_⟩
        simp only [TExpr.vars, List.mem_append] at hy ⊢
        exact hy.imp id (i1.2.2 y)
    · rename_i n' _ hn _
      obtain ⟨a', h2, h⟩ := pbind_ok h
      have i2 := propT_typed hC a a' h2 w1
      rw [t1] at i2
      rw [t1] at hn
      simp only [sizeOf?, Option.some.injEq] at hn
      subst hn
      obtain ⟨g1, g2, g3⟩ := foldSelect_typed i2.2.1 i1.2.1 i2.1 i1.1 h
      exact ⟨g1, g2, fun y hy => typ_sub i2.2.2 i1.2.2 y (g3 y hy)⟩
  | .member t s m, e', h, w => by
    obtain ⟨⟨ms, t1, t2⟩, w1⟩ := w
    simp only [propT] at h
    obtain ⟨s', h1, h⟩ := pbind_ok h
    have i1 := propT_typed hC s s' h1 w1
    rw [t1] at i1
    obtain ⟨g1, g2, g3⟩ := foldMember_typed i1.2.1 i1.1 t2 h
    exact ⟨g1, g2, fun y hy => i1.2.2 y (g3 y hy)⟩
  | .element t s i, e', h, w => by
    obtain ⟨⟨ms, t1, t2⟩, w1⟩ := w
    simp only [propT] at h
    obtain ⟨s', h1, h⟩ := pbind_ok h
    have i1 := propT_typed hC s s' h1 w1
    rw [t1] at i1
    obtain ⟨g1, g2, g3⟩ := foldElement_typed i1.2.1 i1.1 t2 h
    exact ⟨g1, g2, fun y hy => i1.2.2 y (g3 y hy)⟩
  | .array t n es, e', h, w => by
    simp only [propT] at h
    obtain ⟨es', h1, h⟩ := pbind_ok h
    cases h
    obtain ⟨g1, g2, g3⟩ := propS_typed hC es es' t n h1 w.2.2 w.2.1
    obtain ⟨k1, k2, k3, _⟩ := simplify_spec g1 g2
    exact ⟨rfl, ⟨w.1, k2, k1⟩, fun y hy => g3 y (k3 y hy)⟩
  | .slice t n a lo hi, e', h, w => by
    obtain ⟨⟨k, l, r, t1, rfl, rfl, hl, hr, hn⟩, w1⟩ := w
    simp only [propT] at h
    obtain ⟨a', h1, h⟩ := pbind_ok h
    have i1 := propT_typed hC a a' h1 w1
    cases h
    refine ⟨rfl, ⟨⟨k, l, r, by rw [i1.1, t1], rfl, rfl, hl, hr, hn⟩, i1.2.1⟩, fun y hy => ?_⟩
    simp only [TExpr.vars, List.append_nil] at hy ⊢
    exact i1.2.2 y hy
  | .repeat_ t n a k, e', h, w => by
    obtain ⟨⟨ht, t1⟩, rfl, w1⟩ := w
    simp only [propT] at h
    obtain ⟨a', h1, h⟩ := pbind_ok h
    have i1 := propT_typed hC a a' h1 w1
    cases h
    refine ⟨rfl, ⟨⟨ht, i1.1.trans t1⟩, rfl, i1.2.1⟩, fun y hy => ?_⟩
    simp only [TExpr.vars, List.append_nil] at hy ⊢
    exact i1.2.2 y hy
  | .struct ms es, e', h, w => by
    simp only [propT] at h
    obtain ⟨es', h1, h⟩ := pbind_ok h
    obtain ⟨g1, g2, g3⟩ := propL_typed hC es es' h1 w.2.2
    split at h
    · rename_i hty
      cases h
      exact ⟨rfl, ⟨w.1, hty, g2⟩, g3⟩
    · cases h
  | .tuple ts es, e', h, w => by
    simp only [propT] at h
    obtain ⟨es', h1, h⟩ := pbind_ok h
    obtain ⟨g1, g2, g3⟩ := propL_typed hC es es' h1 w.2
    split at h
    · rename_i hty
      cases h
      exact ⟨rfl, ⟨hty, g2⟩, g3⟩
    · cases h
  | .removed _, e', h, w => w.elim
theorem propL_typed {C : Consts (ZMod p)} (hC : GoodC C) : ∀ (es es' : List (TExpr (ZMod p))), propL C es = .ok es' → WtL es → es'.map TExpr.ty = es.map TExpr.ty ∧
    WtL es' ∧ ∀ y ∈ varsL es', y ∈ varsL es
  | [], es', h, w => by simp only [propL] at h; cases h; exact ⟨rfl, trivial, fun y hy => hy⟩
  | e :: es, es', h, w => by
    simp only [propL] at h
    obtain ⟨a, h1, h⟩ := pbind_ok h
    obtain ⟨as, h2, h⟩ := pbind_ok h
    cases h
    have i1 := propT_typed hC e a h1 w.1
    obtain ⟨g1, g2, g3⟩ := propL_typed hC es as h2 w.2
    refine ⟨by simp [i1.1, g1], ⟨i1.2.1, g2⟩, fun y hy => ?_⟩
    simp only [varsL, List.mem_append] at hy ⊢
    exact hy.imp (i1.2.2 y) (g3 y)
theorem propS_typed {C : Consts (ZMod p)} (hC : GoodC C) : ∀ (es es' : List (TSpread (ZMod p))) (t : CType) (n : ℕ), propS C es = .ok es' → WtS t es → spreadCount t es n →
    WtS t es' ∧ spreadCount t es' n ∧ ∀ y ∈ varsS es', y ∈ varsS es
  | [], es', t, n, h, w, hn => by simp only [propS] at h; cases h; exact ⟨trivial, hn, fun y hy => hy⟩
  | .expr e :: es, es', t, n, h, w, hn => by
    simp only [propS] at h
    obtain ⟨a, h1, h⟩ := pbind_ok h
    obtain ⟨as, h2, h⟩ := pbind_ok h
    cases h
    obtain ⟨k, rfl, hn⟩ := hn
    have i1 := propT_typed hC e a h1 w.1.2
    obtain ⟨g1, g2, g3⟩ := propS_typed hC es as t k h2 w.2 hn
    refine ⟨⟨⟨i1.1.trans w.1.1, i1.2.1⟩, g1⟩, ⟨k, rfl, g2⟩, fun y hy => ?_⟩
    simp only [varsS, List.mem_append] at hy ⊢
    exact hy.imp (i1.2.2 y) (g3 y)
  | .spread e :: es, es', t, n, h, w, hn => by
    simp only [propS] at h
    obtain ⟨a, h1, h⟩ := pbind_ok h
    obtain ⟨as, h2, h⟩ := pbind_ok h
    cases h
    obtain ⟨m, k, ht, rfl, hn⟩ := hn
    have i1 := propT_typed hC e a h1 w.1
    obtain ⟨g1, g2, g3⟩ := propS_typed hC es as t k h2 w.2 hn
    refine ⟨⟨i1.2.1, g1⟩, ⟨m, k, i1.1.trans ht, rfl, g2⟩, fun y hy => ?_⟩
    simp only [varsS, List.mem_append] at hy ⊢
    exact hy.imp (i1.2.2 y) (g3 y)
end

/-- The results of lists have the values `vs`, or there is an error which does not claim that there are none. -/
def KeepsL {α : Type} (P : α → Prop) : Except PErr α → Prop
  | .ok a => P a
  | .error er => ¬ er.Detected

theorem keepsL_bind {α β : Type} {x : Except PErr α} {f : α → Except PErr β} {P : α → Prop} {Q : β → Prop} (h : KeepsL P x) (g : ∀ a, x = .ok a → P a → KeepsL Q (f a)) :
    KeepsL Q (x.bind f) := by
  cases x with
  | error e => exact h
  | ok a => exact g a rfl h

theorem keeps_bind {env : TEnv p} {v : AVal (ZMod p)} {α : Type} {x : Except PErr α} {f : α → Except PErr (TExpr (ZMod p))} {P : α → Prop} (h : KeepsL P x)
    (g : ∀ a, x = .ok a → P a → Keeps env v (f a)) : Keeps env v (x.bind f) := by
  cases x with
  | error e => exact h
  | ok a => exact g a rfl h

theorem keeps_L {env : TEnv p} {v : AVal (ZMod p)} {x : Except PErr (TExpr (ZMod p))} (h : Keeps env v x) : KeepsL (fun e => evalT env e = .ok v) x := by
  cases x <;> exact h

theorem isConst_prop {C : Consts (ZMod p)} {e e' : TExpr (ZMod p)} (h : propT C e = .ok e') (hc : e.isConst = true) : e'.isConst = true := by
  unfold TExpr.isConst at hc
  split at hc
  · simp only [propT] at h; cases h; rfl
  · simp only [propT] at h
    obtain ⟨a, h1, h⟩ := pbind_ok h
    obtain ⟨b, h2, h⟩ := pbind_ok h
    cases h2
    simp only [foldFU, TExpr.litU, if_true] at h
    cases h; rfl
  · cases hc

theorem fcmp_mono {env env' : TEnv p} {v x y : AVal (ZMod p)} {op : COp} {l r l' r' : TExpr (ZMod p)} (h : evalT env (.fcmp op l r) = .ok v) (hl : evalT env l = .ok x)
    (hr : evalT env r = .ok y) (hc : (l.isConst || r.isConst) = true → (l'.isConst || r'.isConst) = true) (hl' : evalT env' l' = .ok x) (hr' : evalT env' r' = .ok y) :
    evalT env' (.fcmp op l' r') = .ok v := by
  simp only [evalT, hl, hr, hl', hr'] at h ⊢
  obtain ⟨a, h1, h⟩ := bind_ok h
  obtain ⟨b, h2, h⟩ := bind_ok h
  rw [h1]
  change ((_ : Except Fault _).bind _) = _
  rw [h2]
  change (if _ then _ else _) = _
  split at h
  · rename_i hd
    rw [if_pos]
    · exact h
    · unfold cmpDefined at hd ⊢
      exact hd.imp hc id
  · cases h

mutual
/-- The result has the value of the source, or the pass gives up for another reason than a failure of the program. -/
theorem propT_keeps {C : Consts (ZMod p)} (hC : GoodC C) {env env' : TEnv p} (hR : EnvRel C env env') : ∀ (e : TExpr (ZMod p)) (v : AVal (ZMod p)), e.Wt →
    evalT env e = .ok v → Keeps env' v (propT C e)
  | .fval n, v, w, h => by simp only [propT, Keeps, evalT] at h ⊢; exact h
  | .bval n, v, w, h => by simp only [propT, Keeps, evalT] at h ⊢; exact h
  | .uval u n, v, w, h => by simp only [propT, Keeps, evalT] at h ⊢; exact h
  | .ident x t, v, w, h => by
    obtain ⟨h1, h2⟩ := ident_ok h
    simp only [propT]
    cases hc : C x with
    | none =>
      simp only
      exact ident_of (by rw [hR.same x hc, h1]) h2
    | some c =>
      simp only
      split
      · obtain ⟨u, g1, g2⟩ := hR.const x c hc
        rw [h1] at g1
        cases g1
        exact g2 env'
      · simp [Keeps, PErr.Detected]
  | .fbin op l r, v, w, h => by
    obtain ⟨a, b, h1, h2, h3⟩ := fbin_ok h
    simp only [propT]
    refine keeps_bind (keeps_L (propT_keeps hC hR l a w.2.2.1 h1)) fun l' _ g1 => keeps_bind (keeps_L (propT_keeps hC hR r b w.2.2.2 h2)) fun r' _ g2 => ?_
    exact foldF_keeps (h3 _ _ _ g1 g2)
  | .fubin op l r, v, w, h => by
    obtain ⟨a, b, h1, h2, h3⟩ := fubin_ok h
    simp only [propT]
    refine keeps_bind (keeps_L (propT_keeps hC hR l a w.2.2.1 h1)) fun l' _ g1 => keeps_bind (keeps_L (propT_keeps hC hR r b w.2.2.2 h2)) fun r' _ g2 => ?_
    exact foldFU_keeps (h3 _ _ _ g1 g2)
  | .fneg e, v, w, h => by
    obtain ⟨a, h1, h3⟩ := fneg_ok h
    simp only [propT]
    exact keeps_bind (keeps_L (propT_keeps hC hR e a w.2 h1)) fun e' _ g1 => foldFneg_eval (h3 _ _ g1)
  | .fpos e, v, w, h => by
    obtain ⟨a, h1, h3⟩ := fpos_ok h
    simp only [propT]
    exact keeps_bind (keeps_L (propT_keeps hC hR e a w.2 h1)) fun e' _ g1 => foldFpos_eval (h3 _ _ g1)
  | .ubin u op l r, v, w, h => by
    obtain ⟨a, b, h1, h2, h3⟩ := ubin_ok h
    simp only [propT]
    refine keeps_bind (keeps_L (propT_keeps hC hR l a w.2.2.1 h1)) fun l' k1 g1 => keeps_bind (keeps_L (propT_keeps hC hR r b w.2.2.2 h2)) fun r' k2 g2 => ?_
    exact foldU_keeps (propT_typed hC l l' k1 w.2.2.1).2.1 (propT_typed hC r r' k2 w.2.2.2).2.1 (h3 _ _ _ g1 g2)
  | .unot u e, v, w, h => by
    obtain ⟨a, h1, h3⟩ := unot_ok h
    simp only [propT]
    exact keeps_bind (keeps_L (propT_keeps hC hR e a w.2 h1)) fun e' k1 g1 => foldUnot_eval (propT_typed hC e e' k1 w.2).2.1 (h3 _ _ g1)
  | .uneg u e, v, w, h => by
    obtain ⟨a, h1, h3⟩ := uneg_ok h
    simp only [propT]
    exact keeps_bind (keeps_L (propT_keeps hC hR e a w.2 h1)) fun e' k1 g1 => foldUneg_eval (propT_typed hC e e' k1 w.2).2.1 (h3 _ _ g1)
  | .upos u e, v, w, h => by
    obtain ⟨a, h1, h3⟩ := upos_ok h
    simp only [propT]
    exact keeps_bind (keeps_L (propT_keeps hC hR e a w.2 h1)) fun e' _ g1 => foldUpos_eval (h3 _ _ g1)
  | .bbin op l r, v, w, h => by
    obtain ⟨a, b, h1, h2, h3⟩ := bbin_ok h
    simp only [propT]
    refine keeps_bind (keeps_L (propT_keeps hC hR l a w.2.2.1 h1)) fun l' _ g1 => keeps_bind (keeps_L (propT_keeps hC hR r b w.2.2.2 h2)) fun r' _ g2 => ?_
    exact foldB_eval (h3 _ _ _ g1 g2)
  | .bnot e, v, w, h => by
    obtain ⟨a, h1, h3⟩ := bnot_ok h
    simp only [propT]
    exact keeps_bind (keeps_L (propT_keeps hC hR e a w.2 h1)) fun e' _ g1 => foldNot_eval (h3 _ _ g1)
  | .fcmp op l r, v, w, h => by
    obtain ⟨a, b, h1, h2, _⟩ := fcmp_ok h
    simp only [propT]
    refine keeps_bind (keeps_L (propT_keeps hC hR l a w.2.2.1 h1)) fun l' k1 g1 => keeps_bind (keeps_L (propT_keeps hC hR r b w.2.2.2 h2)) fun r' k2 g2 => ?_
    refine foldFcmp_eval (fcmp_mono h h1 h2 (fun hc => ?_) g1 g2)
    rw [Bool.or_eq_true] at hc ⊢
    exact hc.imp (isConst_prop k1) (isConst_prop k2)
  | .ucmp op l r, v, w, h => by
    obtain ⟨a, b, h1, h2, h3⟩ := ucmp_ok h
    simp only [propT]
    refine keeps_bind (keeps_L (propT_keeps hC hR l a w.2.1 h1)) fun l' k1 g1 => keeps_bind (keeps_L (propT_keeps hC hR r b w.2.2 h2)) fun r' k2 g2 => ?_
    exact foldUcmp_eval (h3 _ _ _ (propT_typed hC l l' k1 w.2.1).1 g1 g2)
  | .eq l r, v, w, h => by
    obtain ⟨a, b, h1, h2, h3⟩ := eq_ok h
    simp only [propT]
    refine keeps_bind (keeps_L (propT_keeps hC hR l a w.2.2.1 h1)) fun l' k1 g1 => keeps_bind (keeps_L (propT_keeps hC hR r b w.2.2.2 h2)) fun r' k2 g2 => ?_
    exact foldEq_keeps (propT_typed hC l l' k1 w.2.2.1).2.1 (propT_typed hC r r' k2 w.2.2.2).2.1 (h3 _ _ _ g1 g2)
  | .cond t c l r, v, w, h => by
    obtain ⟨k, a, b, h1, h2, h3, h4, h5⟩ := cond_ok h
    obtain ⟨t1, t2, t3, w1, w2, w3⟩ := w
    simp only [propT]
    refine keeps_bind (keeps_L (propT_keeps hC hR c _ w1 h1)) fun c' k1 g1 => ?_
    split
    · rename_i hc
      rw [bool_lit hc] at g1
      cases g1
      simp only [if_true] at h4
      rw [h4]
      exact propT_keeps hC hR l a w2 h2
    · rename_i hc
      rw [bool_lit hc] at g1
      cases g1
      simp only [Bool.false_eq_true, if_false] at h4
      rw [h4]
      exact propT_keeps hC hR r b w3 h3
    · refine keeps_bind (keeps_L (propT_keeps hC hR l a w2 h2)) fun l' _ g2 => keeps_bind (keeps_L (propT_keeps hC hR r b w3 h3)) fun r' _ g3 => ?_
      exact foldCond_eval (h5 _ _ _ _ _ g1 g2 g3)
  | .select t a i, v, w, h => by
    obtain ⟨x, y, h1, h2, h3⟩ := select_ok h
    obtain ⟨vs, k, h4, h5, h6⟩ := select_inv h
    obtain ⟨⟨n, t1⟩, t2, w1, w2⟩ := w
    simp only [propT]
    refine keeps_bind (keeps_L (propT_keeps hC hR i y w2 h2)) fun i' k1 g1 => ?_
    split
    · simp [Keeps, PErr.Detected]
    · rename_i x' ta j n' ha hj _
      have := identOf_some ha
      subst this
      rw [h2] at h5
      cases h5
      obtain rfl := uint_lit hj g1
      cases hc : C x' with
      | some c =>
        simp only
        obtain ⟨u, e1, e2⟩ := hR.const x' c hc
        have := (ident_ok h4).1
        rw [e1] at this
        cases this
        cases hs : selectConst c ta k with
        | error er => exact selectConst_error (hC x' c hc).wt e2 (List.getElem?_eq_some_iff.1 h6).1 hs
        | ok e =>
          obtain ⟨_, _, hg⟩ := selectConst_ok (hC x' c hc) t1 hs
          obtain ⟨v', f1, f2⟩ := hg vs e2
          rw [h6] at f1
          cases f1
          exact f2 env'
      | none =>
        simp only
        obtain ⟨f1, f2⟩ := ident_ok h1
        exact h3 _ _ _ (ident_of (by rw [hR.same x' hc, f1]) f2) g1
    · rename_i n' _ hn _
      rw [t1] at hn
      simp only [sizeOf?, Option.some.injEq] at hn
      subst hn
      refine keeps_bind (keeps_L (propT_keeps hC hR a x w1 h1)) fun a' k2 g2 => ?_
      have i2 := propT_typed hC a a' k2 w1
      rw [t1] at i2
      exact foldSelect_keeps i2.2.1 i2.1 (h3 _ _ _ g2 g1)
  | .member t s m, v, w, h => by
    obtain ⟨a, h1, h3⟩ := member_ok h
    simp only [propT]
    exact keeps_bind (keeps_L (propT_keeps hC hR s a w.2 h1)) fun e' _ g1 => foldMember_keeps (h3 _ _ g1)
  | .element t s i, v, w, h => by
    obtain ⟨a, h1, h3⟩ := element_ok h
    simp only [propT]
    exact keeps_bind (keeps_L (propT_keeps hC hR s a w.2 h1)) fun e' _ g1 => foldElement_keeps (h3 _ _ g1)
  | .array t n es, v, w, h => by
    obtain ⟨vs, h1, rfl, h3⟩ := array_ok h
    simp only [propT]
    refine keeps_bind (propS_keeps hC hR t es vs w.2.2 h1) fun es' k1 g1 => ?_
    obtain ⟨f1, f2, f3⟩ := propS_typed hC es es' t n k1 w.2.2 w.2.1
    exact h3 _ _ ((simplify_spec f1 f2).2.2.2 _ _ g1)
  | .slice t n a lo hi, v, w, h => by
    obtain ⟨x, l, r, h1, h2, h3, h4⟩ := slice_ok h
    obtain ⟨⟨k, l', r', t1, rfl, rfl, _⟩, w1⟩ := w
    simp only [propT]
    refine keeps_bind (keeps_L (propT_keeps hC hR a x w1 h1)) fun a' k1 g1 => ?_
    exact h4 _ _ _ _ g1 (by simp only [evalT] at h2 ⊢; exact h2) (by simp only [evalT] at h3 ⊢; exact h3)
  | .repeat_ t n a k, v, w, h => by
    obtain ⟨x, y, h1, h2, h3⟩ := repeat__ok h
    obtain ⟨_, rfl, w1⟩ := w
    simp only [propT]
    refine keeps_bind (keeps_L (propT_keeps hC hR a x w1 h1)) fun a' k1 g1 => ?_
    exact h3 _ _ _ g1 (by simp only [evalT] at h2 ⊢; exact h2)
  | .struct ms es, v, w, h => by
    obtain ⟨vs, h1, h3⟩ := struct_ok h
    simp only [propT]
    refine keeps_bind (propL_keeps hC hR es vs w.2.2 h1) fun es' k1 g1 => ?_
    split
    · exact h3 _ _ g1
    · simp [Keeps, PErr.Detected]
  | .tuple ts es, v, w, h => by
    obtain ⟨vs, h1, h3⟩ := tuple_ok h
    simp only [propT]
    refine keeps_bind (propL_keeps hC hR es vs w.2 h1) fun es' k1 g1 => ?_
    split
    · exact h3 _ _ g1
    · simp [Keeps, PErr.Detected]
  | .removed _, v, w, h => w.elim
theorem propL_keeps {C : Consts (ZMod p)} (hC : GoodC C) {env env' : TEnv p} (hR : EnvRel C env env') : ∀ (es : List (TExpr (ZMod p))) (vs : List (AVal (ZMod p))), WtL es →
    evalL env es = .ok vs → KeepsL (fun es' => evalL env' es' = .ok vs) (propL C es)
  | [], vs, w, h => by simp only [propL, KeepsL, evalL] at h ⊢; exact h
  | e :: es, vs, w, h => by
    obtain ⟨a, as, h1, h2, rfl, h3⟩ := cons_ok h
    simp only [propL]
    exact keepsL_bind (keeps_L (propT_keeps hC hR e a w.1 h1)) fun e' _ g1 => keepsL_bind (propL_keeps hC hR es as w.2 h2) fun es' _ g2 => h3 _ _ _ g1 g2
theorem propS_keeps {C : Consts (ZMod p)} (hC : GoodC C) {env env' : TEnv p} (hR : EnvRel C env env') (t : CType) : ∀ (es : List (TSpread (ZMod p)))
    (vs : List (AVal (ZMod p))), WtS t es → evalS env es = .ok vs → KeepsL (fun es' => evalS env' es' = .ok vs) (propS C es)
  | [], vs, w, h => by simp only [propS, KeepsL, evalS] at h ⊢; exact h
  | .expr e :: es, vs, w, h => by
    obtain ⟨a, as, h1, h2, rfl, h3⟩ := expr_ok h
    simp only [propS]
    exact keepsL_bind (keeps_L (propT_keeps hC hR e a w.1.2 h1)) fun e' _ g1 => keepsL_bind (propS_keeps hC hR t es as w.2 h2) fun es' _ g2 => h3 _ _ _ g1 g2
  | .spread e :: es, vs, w, h => by
    obtain ⟨a, as, h1, h2, rfl, h3⟩ := spread_ok h
    simp only [propS]
    exact keepsL_bind (keeps_L (propT_keeps hC hR e _ w.1 h1)) fun e' _ g1 => keepsL_bind (propS_keeps hC hR t es as w.2 h2) fun es' _ g2 => h3 _ _ _ g1 g2
end

theorem keepsL_ok {α : Type} {P : α → Prop} {x : Except PErr α} {a : α} (h : KeepsL P x) (hx : x = .ok a) : P a := by subst hx; exact h

theorem propT_eval {C : Consts (ZMod p)} (hC : GoodC C) {env env' : TEnv p} (hR : EnvRel C env env') {e e' : TExpr (ZMod p)} {v : AVal (ZMod p)} (w : e.Wt)
    (h : propT C e = .ok e') (hv : evalT env e = .ok v) : evalT env' e' = .ok v := keepsL_ok (P := fun e => evalT env' e = .ok v) (keeps_L (propT_keeps hC hR e v w hv)) h

theorem propL_eval {C : Consts (ZMod p)} (hC : GoodC C) {env env' : TEnv p} (hR : EnvRel C env env') {es es' : List (TExpr (ZMod p))} {vs : List (AVal (ZMod p))} (w : WtL es)
    (h : propL C es = .ok es') (hv : evalL env es = .ok vs) : evalL env' es' = .ok vs := keepsL_ok (P := fun e => evalL env' e = .ok vs) (propL_keeps hC hR es vs w hv) h

end Zok.Typed
