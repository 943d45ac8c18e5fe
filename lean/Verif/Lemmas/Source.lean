import Verif.Spec.Source
import Verif.Lemmas.TypedEval
import Verif.Lemmas.FlattenTypesExpr
import Verif.Lemmas.SemanticsFun

/-
A typed expression which reads a source expression has its value.
-/

set_option linter.unusedVariables false
set_option linter.unusedSimpArgs false

namespace Zok.Sem
open Typed Abi
variable {p : ℕ} {D : Decls} {G : Scope} [Fact p.Prime]

/-- The environment of the source, the scope of the checker, and the environment of the typed program agree. -/
structure EnvOk (G : Scope) (E : SEnv p) (env : TEnv p) : Prop where
  types : ∀ x, G x = (E x).map Prod.fst
  vals : ∀ x t v, E x = some (t, v) → HasType t v ∧ env x = some v

variable {E : SEnv p} {env : TEnv p}

theorem lit_const {s : SExpr} {e : TExpr (ZMod p)} (h : Reads D G s e) (he : e.ty = .field) (hw : e.Wt) (hl : s.isLit = true) : e.isConst = true := by
  cases h with
  | fpow h1 h2 =>
    unfold SExpr.isLit at hl
    split at hl <;> simp_all
    · cases h2
      · simp only [TExpr.Wt, TExpr.ty] at hw; simp at hw
      · simp only [TExpr.Wt, TExpr.ty] at hw; obtain ⟨-, hw, -⟩ := hw; cases hw; rfl
    · cases h2; rfl
  | _ => simp_all [SExpr.isLit, TExpr.isConst, TExpr.ty]

theorem const_lit {s : SExpr} {e : TExpr (ZMod p)} (h : Reads D G s e) (hl : e.isConst = true) : s.isLit = true := by
  cases h with
  | fpow h1 h2 =>
    unfold TExpr.isConst at hl
    split at hl
    · simp_all
    · rename_i h3
      cases h3
      cases h2 <;> rfl
    · cases hl
  | _ => simp_all [SExpr.isLit, TExpr.isConst]

theorem lit_eq {s1 s2 : SExpr} {l r : TExpr (ZMod p)} (h1 : Reads D G s1 l) (h2 : Reads D G s2 r) (hl : l.ty = .field) (hr : r.ty = .field) (w1 : l.Wt) (w2 : r.Wt) :
    (s1.isLit || s2.isLit) = (l.isConst || r.isConst) := by
  rw [Bool.eq_iff_iff, Bool.or_eq_true, Bool.or_eq_true]
  exact ⟨fun h => h.imp (lit_const h1 hl w1) (lit_const h2 hr w2), fun h => h.imp (const_lit h1) (const_lit h2)⟩

theorem lit_or {s1 s2 : SExpr} {l r : TExpr (ZMod p)} (h1 : Reads D G s1 l) (h2 : Reads D G s2 r) (hl : l.ty = .field) (hr : r.ty = .field) (w1 : l.Wt) (w2 : r.Wt)
    {a b : ZMod p} (h : cmpDefined p (s1.isLit || s2.isLit) a b) : cmpDefined p (l.isConst || r.isConst) a b := by
  rwa [lit_eq h1 h2 hl hr w1 w2] at h

theorem cmp_comm {x y : Bool} {a b : ZMod p} (h : cmpDefined p (x || y) a b) : cmpDefined p (y || x) b a := by
  rw [Bool.or_comm]
  unfold cmpDefined at *
  tauto

theorem lit_or' {s1 s2 : SExpr} {l r : TExpr (ZMod p)} (h1 : Reads D G s1 l) (h2 : Reads D G s2 r) (hl : l.ty = .field) (hr : r.ty = .field) (w1 : l.Wt) (w2 : r.Wt)
    {a b : ZMod p} (h : cmpDefined p (s1.isLit || s2.isLit) a b) : cmpDefined p (r.isConst || l.isConst) b a := cmp_comm (lit_or h1 h2 hl hr w1 w2 h)

theorem andThen {a b : Prop} (h : a) (f : a → b) : a ∧ b := ⟨h, f h⟩

theorem uop_right {op : BinOp} {w : UW} : UOp.rightWidth w op.uint = w := by cases op <;> rfl

theorem spread_pos {t : CType} {es : List (TSpread (ZMod p))} {n m : ℕ} (h : spreadCount t es n) (h' : spreadCount t es m) : n = m := by
  induction es generalizing n m with
  | nil => exact h.trans h'.symm
  | cons e es ih =>
    cases e with
    | expr e =>
      obtain ⟨k, rfl, h⟩ := h
      obtain ⟨k', rfl, h'⟩ := h'
      rw [ih h h']
    | spread e =>
      obtain ⟨a, k, hk, rfl, h⟩ := h
      obtain ⟨a', k', hk', rfl, h'⟩ := h'
      rw [hk] at hk'
      cases hk'
      rw [ih h h']

mutual
/-- The value of a typed expression is the one of the source expression, if the type is. -/
theorem ev_sound (ho : EnvOk G E env) : ∀ {s : SExpr} {t : CType} {v : AVal (ZMod p)}, Ev D E s t v → ∀ {e : TExpr (ZMod p)}, Reads D G s e → e.Wt → e.ty = t ∨ s.Det →
    e.ty = t ∧ evalT env e = .ok v
  | _, _, _, .intF h, _, hr, hw, ht => by
    cases hr <;> simp_all [TExpr.ty, SExpr.Det, evalT]
  | _, _, _, .intU h, _, hr, hw, ht => by
    cases hr <;> simp_all [TExpr.ty, SExpr.Det, evalT]
  | _, _, _, .fieldC, _, hr, hw, ht => by
    cases hr; simp [TExpr.ty, evalT]
  | _, _, _, .uintC, _, hr, hw, ht => by
    cases hr; simp [TExpr.ty, evalT]
  | _, _, _, .boolC, _, hr, hw, ht => by
    cases hr; simp [TExpr.ty, evalT]
  | _, _, _, .ident (t := t) h, _, hr, hw, ht => by
    cases hr
    rename_i t' h'
    rw [ho.types, h] at h'
    cases h'
    obtain ⟨a, b⟩ := ho.vals _ _ _ h
    simp [TExpr.ty, evalT, b, a]
  | _, _, _, .fneg h, _, hr, hw, ht => by
    cases hr with
    | fneg r1 =>
      have a := (ev_sound ho h r1 hw.2 (.inl hw.1)).2
      exact ⟨rfl, by simp [evalT, a, asField, Except.bind, bind]⟩
    | uneg r1 =>
      exfalso
      rcases ht with ht | ht
      · cases ht
      · have := (ev_sound ho h r1 hw.2 (.inr ht)).1; rw [hw.1] at this; cases this
  | _, _, _, .fpos h, _, hr, hw, ht => by
    cases hr with
    | fpos r1 =>
      have a := (ev_sound ho h r1 hw.2 (.inl hw.1)).2
      exact ⟨rfl, by simp [evalT, a, asField, Except.bind, bind]⟩
    | upos r1 =>
      exfalso
      rcases ht with ht | ht
      · cases ht
      · have := (ev_sound ho h r1 hw.2 (.inr ht)).1; rw [hw.1] at this; cases this
  | _, _, _, .uneg (w := w) h, _, hr, hw, ht => by
    cases hr with
    | fneg r1 =>
      exfalso
      rcases ht with ht | ht
      · cases ht
      · have := (ev_sound ho h r1 hw.2 (.inr ht)).1; rw [hw.1] at this; cases this
    | uneg r1 =>
      refine andThen (by
        rcases ht with ht | ht
        · exact ht
        · have := (ev_sound ho h r1 hw.2 (.inr ht)).1; rw [hw.1] at this; exact this) fun key => ?_
      cases key
      have a := (ev_sound ho h r1 hw.2 (.inl hw.1)).2
      simp [evalT, a, asUint, Except.bind, bind]
  | _, _, _, .upos (w := w) h, _, hr, hw, ht => by
    cases hr with
    | fpos r1 =>
      exfalso
      rcases ht with ht | ht
      · cases ht
      · have := (ev_sound ho h r1 hw.2 (.inr ht)).1; rw [hw.1] at this; cases this
    | upos r1 =>
      refine andThen (by
        rcases ht with ht | ht
        · exact ht
        · have := (ev_sound ho h r1 hw.2 (.inr ht)).1; rw [hw.1] at this; exact this) fun key => ?_
      cases key
      have a := (ev_sound ho h r1 hw.2 (.inl hw.1)).2
      simp [evalT, a, asUint, Except.bind, bind]
  | _, _, _, .unot (w := w) h, _, hr, hw, ht => by
    cases hr with
    | bnot r1 =>
      exfalso
      rcases ht with ht | ht
      · cases ht
      · have := (ev_sound ho h r1 hw.2 (.inr ht)).1; rw [hw.1] at this; cases this
    | unot r1 =>
      refine andThen (by
        rcases ht with ht | ht
        · exact ht
        · have := (ev_sound ho h r1 hw.2 (.inr ht)).1; rw [hw.1] at this; exact this) fun key => ?_
      cases key
      have a := (ev_sound ho h r1 hw.2 (.inl hw.1)).2
      simp [evalT, a, asUint, Except.bind, bind]
  | _, _, _, .bnot h, _, hr, hw, ht => by
    cases hr with
    | bnot r1 =>
      have a := (ev_sound ho h r1 hw.2 (.inl hw.1)).2
      exact ⟨rfl, by simp [evalT, a, asBool, Except.bind, bind]⟩
    | unot r1 =>
      exfalso
      rcases ht with ht | ht
      · cases ht
      · have := (ev_sound ho h r1 hw.2 (.inr ht)).1; rw [hw.1] at this; cases this
  | _, _, _, .fadd h1 h2, _, hr, hw, ht => by
    cases hr with
    | fbin ho' r1 r2 =>
      cases ho'
      have a := (ev_sound ho h1 r1 hw.2.2.1 (.inl hw.1)).2
      have b := (ev_sound ho h2 r2 hw.2.2.2 (.inl hw.2.1)).2
      exact ⟨rfl, by simp [evalT, a, b, asField, Except.bind, bind, FOp.eval]⟩
    | ubin r1 r2 =>
      exfalso
      rcases ht with ht | ht | ht
      · cases ht
      · have := (ev_sound ho h1 r1 hw.2.2.1 (.inr ht)).1; rw [hw.1] at this; cases this
      · have := (ev_sound ho h2 r2 hw.2.2.2 (.inr ht)).1; rw [hw.2.1] at this; cases this
  | _, _, _, .fsub h1 h2, _, hr, hw, ht => by
    cases hr with
    | fbin ho' r1 r2 =>
      cases ho'
      have a := (ev_sound ho h1 r1 hw.2.2.1 (.inl hw.1)).2
      have b := (ev_sound ho h2 r2 hw.2.2.2 (.inl hw.2.1)).2
      exact ⟨rfl, by simp [evalT, a, b, asField, Except.bind, bind, FOp.eval]⟩
    | ubin r1 r2 =>
      exfalso
      rcases ht with ht | ht | ht
      · cases ht
      · have := (ev_sound ho h1 r1 hw.2.2.1 (.inr ht)).1; rw [hw.1] at this; cases this
      · have := (ev_sound ho h2 r2 hw.2.2.2 (.inr ht)).1; rw [hw.2.1] at this; cases this
  | _, _, _, .fmul h1 h2, _, hr, hw, ht => by
    cases hr with
    | fbin ho' r1 r2 =>
      cases ho'
      have a := (ev_sound ho h1 r1 hw.2.2.1 (.inl hw.1)).2
      have b := (ev_sound ho h2 r2 hw.2.2.2 (.inl hw.2.1)).2
      exact ⟨rfl, by simp [evalT, a, b, asField, Except.bind, bind, FOp.eval]⟩
    | ubin r1 r2 =>
      exfalso
      rcases ht with ht | ht | ht
      · cases ht
      · have := (ev_sound ho h1 r1 hw.2.2.1 (.inr ht)).1; rw [hw.1] at this; cases this
      · have := (ev_sound ho h2 r2 hw.2.2.2 (.inr ht)).1; rw [hw.2.1] at this; cases this
  | _, _, _, .fdiv h1 h2 h0, _, hr, hw, ht => by
    cases hr with
    | fbin ho' r1 r2 =>
      cases ho'
      have a := (ev_sound ho h1 r1 hw.2.2.1 (.inl hw.1)).2
      have b := (ev_sound ho h2 r2 hw.2.2.2 (.inl hw.2.1)).2
      exact ⟨rfl, by simp [evalT, a, b, asField, Except.bind, bind, FOp.eval, h0]⟩
    | ubin r1 r2 =>
      exfalso
      rcases ht with ht | ht | ht
      · cases ht
      · have := (ev_sound ho h1 r1 hw.2.2.1 (.inr ht)).1; rw [hw.1] at this; cases this
      · have := (ev_sound ho h2 r2 hw.2.2.2 (.inr ht)).1; rw [hw.2.1] at this; cases this
  | _, _, _, .ubin (w := w) h1 h2 h0, _, hr, hw, ht => by
    cases hr with
    | fbin ho' r1 r2 =>
      exfalso
      rcases ht with ht | ht | ht
      · cases ht
      · have := (ev_sound ho h1 r1 hw.2.2.1 (.inr ht)).1; rw [hw.1] at this; cases this
      · have := (ev_sound ho h2 r2 hw.2.2.2 (.inr ht)).1; rw [hw.2.1] at this; cases this
    | ubin r1 r2 =>
      simp only [TExpr.Wt, uop_right] at hw
      refine andThen (by
        rcases ht with ht | ht | ht
        · exact ht
        · have := (ev_sound ho h1 r1 hw.2.2.1 (.inr ht)).1; rw [hw.1] at this; exact this
        · have := (ev_sound ho h2 r2 hw.2.2.2 (.inr ht)).1; rw [hw.2.1] at this; exact this) fun key => ?_
      cases key
      have a := (ev_sound ho h1 r1 hw.2.2.1 (.inl hw.1)).2
      have b := (ev_sound ho h2 r2 hw.2.2.2 (.inl hw.2.1)).2
      simp [evalT, a, b, asUint, Except.bind, bind, uop_right, h0]
  | _, _, _, .pow h1 h2, _, hr, hw, ht => by
    cases hr with
    | fpow r1 r2 =>
      have a := (ev_sound ho h1 r1 hw.2.2.1 (.inl hw.1)).2
      have b := (ev_sound ho h2 r2 hw.2.2.2 (.inl hw.2.1)).2
      exact ⟨rfl, by simp [evalT, a, b, asField, asUint, Except.bind, bind]⟩
  | _, _, _, .shl (w := w) h1 h2, _, hr, hw, ht => by
    cases hr with
    | fshl r1 r2 =>
      exfalso
      rcases ht with ht | ht
      · cases ht
      · have := (ev_sound ho h1 r1 hw.2.2.1 (.inr ht)).1; rw [hw.1] at this; cases this
    | ushl r1 r2 =>
      refine andThen (by
        rcases ht with ht | ht
        · exact ht
        · have := (ev_sound ho h1 r1 hw.2.2.1 (.inr ht)).1; rw [hw.1] at this; exact this) fun key => ?_
      cases key
      have a := (ev_sound ho h1 r1 hw.2.2.1 (.inl hw.1)).2
      have b := (ev_sound ho h2 r2 hw.2.2.2 (.inl hw.2.1)).2
      simp [evalT, a, b, asUint, Except.bind, bind, UOp.rightWidth, UOp.eval]
  | _, _, _, .shr (w := w) h1 h2, _, hr, hw, ht => by
    cases hr with
    | fshr r1 r2 =>
      exfalso
      rcases ht with ht | ht
      · cases ht
      · have := (ev_sound ho h1 r1 hw.2.2.1 (.inr ht)).1; rw [hw.1] at this; cases this
    | ushr r1 r2 =>
      refine andThen (by
        rcases ht with ht | ht
        · exact ht
        · have := (ev_sound ho h1 r1 hw.2.2.1 (.inr ht)).1; rw [hw.1] at this; exact this) fun key => ?_
      cases key
      have a := (ev_sound ho h1 r1 hw.2.2.1 (.inl hw.1)).2
      have b := (ev_sound ho h2 r2 hw.2.2.2 (.inl hw.2.1)).2
      simp [evalT, a, b, asUint, Except.bind, bind, UOp.rightWidth, UOp.eval]
  | _, _, _, .and h1 h2, _, hr, hw, ht => by
    cases hr with
    | logic r1 r2 =>
      have a := (ev_sound ho h1 r1 hw.2.2.1 (.inl hw.1)).2
      have b := (ev_sound ho h2 r2 hw.2.2.2 (.inl hw.2.1)).2
      exact ⟨rfl, by simp [evalT, a, b, asBool, Except.bind, bind]⟩
    | logicF r1 r2 =>
      exfalso
      rcases ht with ht | ht | ht
      · cases ht
      · have := (ev_sound ho h1 r1 hw.2.2.1 (.inr ht)).1; rw [hw.1] at this; cases this
      · have := (ev_sound ho h2 r2 hw.2.2.2 (.inr ht)).1; rw [hw.2.1] at this; cases this
    | logicU r1 r2 =>
      exfalso
      rcases ht with ht | ht | ht
      · cases ht
      · have := (ev_sound ho h1 r1 hw.2.2.1 (.inr ht)).1; rw [hw.1] at this; cases this
      · have := (ev_sound ho h2 r2 hw.2.2.2 (.inr ht)).1; rw [hw.2.1] at this; cases this
  | _, _, _, .andU (w := w) h1 h2, _, hr, hw, ht => by
    cases hr with
    | logic r1 r2 =>
      exfalso
      rcases ht with ht | ht | ht
      · cases ht
      · have := (ev_sound ho h1 r1 hw.2.2.1 (.inr ht)).1; rw [hw.1] at this; cases this
      · have := (ev_sound ho h2 r2 hw.2.2.2 (.inr ht)).1; rw [hw.2.1] at this; cases this
    | logicF r1 r2 =>
      exfalso
      rcases ht with ht | ht | ht
      · cases ht
      · have := (ev_sound ho h1 r1 hw.2.2.1 (.inr ht)).1; rw [hw.1] at this; cases this
      · have := (ev_sound ho h2 r2 hw.2.2.2 (.inr ht)).1; rw [hw.2.1] at this; cases this
    | logicU r1 r2 =>
      simp only [TExpr.Wt, UOp.rightWidth] at hw
      refine andThen (by
        rcases ht with ht | ht | ht
        · exact ht
        · have := (ev_sound ho h1 r1 hw.2.2.1 (.inr ht)).1; rw [hw.1] at this; exact this
        · have := (ev_sound ho h2 r2 hw.2.2.2 (.inr ht)).1; rw [hw.2.1] at this; exact this) fun key => ?_
      cases key
      have a := (ev_sound ho h1 r1 hw.2.2.1 (.inl hw.1)).2
      have b := (ev_sound ho h2 r2 hw.2.2.2 (.inl hw.2.1)).2
      simp [evalT, a, b, asUint, Except.bind, bind, UOp.rightWidth, UOp.eval]
  | _, _, _, .or h1 h2, _, hr, hw, ht => by
    cases hr with
    | logic r1 r2 =>
      have a := (ev_sound ho h1 r1 hw.2.2.1 (.inl hw.1)).2
      have b := (ev_sound ho h2 r2 hw.2.2.2 (.inl hw.2.1)).2
      exact ⟨rfl, by simp [evalT, a, b, asBool, Except.bind, bind]⟩
  | _, _, _, .relF (l := s1) (r := s2) hd h1 h2 hc, _, hr, hw, _ => by
    have no : ∀ {l r : TExpr (ZMod p)}, Reads D G s1 l → Reads D G s2 r → (∃ w, l.ty = .uint w ∧ r.ty = .uint w) → l.Wt → r.Wt → False := by
      rintro l r r1 r2 ⟨w, t1, t2⟩ w1 w2
      rcases hd with hd | hd
      · have := (ev_sound ho h1 r1 w1 (.inr hd)).1; rw [t1] at this; cases this
      · have := (ev_sound ho h2 r2 w2 (.inr hd)).1; rw [t2] at this; cases this
    cases hr with
    | ult r1 r2 => exact (no r1 r2 hw.1 hw.2.1 hw.2.2).elim
    | ule r1 r2 => exact (no r1 r2 hw.1 hw.2.1 hw.2.2).elim
    | ugt r1 r2 => exact (no r1 r2 (by obtain ⟨w, a, b⟩ := hw.1; exact ⟨w, b, a⟩) hw.2.2 hw.2.1).elim
    | uge r1 r2 => exact (no r1 r2 (by obtain ⟨w, a, b⟩ := hw.1; exact ⟨w, b, a⟩) hw.2.2 hw.2.1).elim
    | flt r1 r2 =>
      have a := (ev_sound ho h1 r1 hw.2.2.1 (.inl hw.1)).2
      have b := (ev_sound ho h2 r2 hw.2.2.2 (.inl hw.2.1)).2
      have := lit_or r1 r2 hw.1 hw.2.1 hw.2.2.1 hw.2.2.2 hc
      exact ⟨rfl, by simp only [evalT, a, b, asField, Except.bind, bind]; rw [if_pos this]; rfl⟩
    | fle r1 r2 =>
      have a := (ev_sound ho h1 r1 hw.2.2.1 (.inl hw.1)).2
      have b := (ev_sound ho h2 r2 hw.2.2.2 (.inl hw.2.1)).2
      have := lit_or r1 r2 hw.1 hw.2.1 hw.2.2.1 hw.2.2.2 hc
      exact ⟨rfl, by simp only [evalT, a, b, asField, Except.bind, bind]; rw [if_pos this]; rfl⟩
    | fgt r1 r2 =>
      have a := (ev_sound ho h1 r1 hw.2.2.2 (.inl hw.2.1)).2
      have b := (ev_sound ho h2 r2 hw.2.2.1 (.inl hw.1)).2
      have := lit_or' r1 r2 hw.2.1 hw.1 hw.2.2.2 hw.2.2.1 hc
      exact ⟨rfl, by simp only [evalT, a, b, asField, Except.bind, bind]; rw [if_pos this]; rfl⟩
    | fge r1 r2 =>
      have a := (ev_sound ho h1 r1 hw.2.2.2 (.inl hw.2.1)).2
      have b := (ev_sound ho h2 r2 hw.2.2.1 (.inl hw.1)).2
      have := lit_or' r1 r2 hw.2.1 hw.1 hw.2.2.2 hw.2.2.1 hc
      exact ⟨rfl, by simp only [evalT, a, b, asField, Except.bind, bind]; rw [if_pos this]; rfl⟩
  | _, _, _, .relU (w := w) (l := s1) (r := s2) hd h1 h2, _, hr, hw, _ => by
    have no : ∀ {l r : TExpr (ZMod p)}, Reads D G s1 l → Reads D G s2 r → l.ty = .field → r.ty = .field → l.Wt → r.Wt → False := by
      rintro l r r1 r2 t1 t2 w1 w2
      rcases hd with hd | hd
      · have := (ev_sound ho h1 r1 w1 (.inr hd)).1; rw [t1] at this; cases this
      · have := (ev_sound ho h2 r2 w2 (.inr hd)).1; rw [t2] at this; cases this
    have ty : ∀ {l r : TExpr (ZMod p)}, Reads D G s1 l → Reads D G s2 r → (∃ w, l.ty = .uint w ∧ r.ty = .uint w) → l.Wt → r.Wt → l.ty = .uint w ∧ r.ty = .uint w := by
      rintro l r r1 r2 ⟨w', t1, t2⟩ w1 w2
      rcases hd with hd | hd
      · have := (ev_sound ho h1 r1 w1 (.inr hd)).1; exact ⟨this, by rw [t2, ← t1, this]⟩
      · have := (ev_sound ho h2 r2 w2 (.inr hd)).1; exact ⟨by rw [t1, ← t2, this], this⟩
    cases hr with
    | flt r1 r2 => exact (no r1 r2 hw.1 hw.2.1 hw.2.2.1 hw.2.2.2).elim
    | fle r1 r2 => exact (no r1 r2 hw.1 hw.2.1 hw.2.2.1 hw.2.2.2).elim
    | fgt r1 r2 => exact (no r1 r2 hw.2.1 hw.1 hw.2.2.2 hw.2.2.1).elim
    | fge r1 r2 => exact (no r1 r2 hw.2.1 hw.1 hw.2.2.2 hw.2.2.1).elim
    | ult r1 r2 =>
      obtain ⟨t1, t2⟩ := ty r1 r2 hw.1 hw.2.1 hw.2.2
      have a := (ev_sound ho h1 r1 hw.2.1 (.inl t1)).2
      have b := (ev_sound ho h2 r2 hw.2.2 (.inl t2)).2
      exact ⟨rfl, by simp [evalT, a, b, t1, asUintOf, asUint, Except.bind, bind, RelOp.on]⟩
    | ule r1 r2 =>
      obtain ⟨t1, t2⟩ := ty r1 r2 hw.1 hw.2.1 hw.2.2
      have a := (ev_sound ho h1 r1 hw.2.1 (.inl t1)).2
      have b := (ev_sound ho h2 r2 hw.2.2 (.inl t2)).2
      exact ⟨rfl, by simp [evalT, a, b, t1, asUintOf, asUint, Except.bind, bind, RelOp.on]⟩
    | ugt r1 r2 =>
      obtain ⟨t1, t2⟩ := ty r1 r2 (by obtain ⟨w, a, b⟩ := hw.1; exact ⟨w, b, a⟩) hw.2.2 hw.2.1
      have a := (ev_sound ho h1 r1 hw.2.2 (.inl t1)).2
      have b := (ev_sound ho h2 r2 hw.2.1 (.inl t2)).2
      exact ⟨rfl, by simp [evalT, a, b, t2, asUintOf, asUint, Except.bind, bind, RelOp.on]⟩
    | uge r1 r2 =>
      obtain ⟨t1, t2⟩ := ty r1 r2 (by obtain ⟨w, a, b⟩ := hw.1; exact ⟨w, b, a⟩) hw.2.2 hw.2.1
      have a := (ev_sound ho h1 r1 hw.2.2 (.inl t1)).2
      have b := (ev_sound ho h2 r2 hw.2.1 (.inl t2)).2
      exact ⟨rfl, by simp [evalT, a, b, t2, asUintOf, asUint, Except.bind, bind, RelOp.on]⟩
  | _, _, _, .eqT (a := va) hd h1 h2, _, hr, hw, _ => by
    cases hr with
    | @eq s1 s2 l r r1 r2 =>
      have ab : evalT env l = .ok va ∧ evalT env r = .ok va := by
        rcases hd with hd | hd
        · have a := ev_sound ho h1 r1 hw.2.2.1 (.inr hd)
          exact ⟨a.2, (ev_sound ho h2 r2 hw.2.2.2 (.inl (by rw [← hw.1, a.1]))).2⟩
        · have b := ev_sound ho h2 r2 hw.2.2.2 (.inr hd)
          exact ⟨(ev_sound ho h1 r1 hw.2.2.1 (.inl (by rw [hw.1, b.1]))).2, b.2⟩
      exact ⟨rfl, by simp [evalT, ab.1, ab.2, Except.bind, bind]⟩
  | _, _, _, .eqF (a := va) (b := vb) hd h1 h2 hn, _, hr, hw, _ => by
    cases hr with
    | @eq s1 s2 l r r1 r2 =>
      have ab : evalT env l = .ok va ∧ evalT env r = .ok vb := by
        rcases hd with hd | hd
        · have a := ev_sound ho h1 r1 hw.2.2.1 (.inr hd)
          exact ⟨a.2, (ev_sound ho h2 r2 hw.2.2.2 (.inl (by rw [← hw.1, a.1]))).2⟩
        · have b := ev_sound ho h2 r2 hw.2.2.2 (.inr hd)
          exact ⟨(ev_sound ho h1 r1 hw.2.2.1 (.inl (by rw [hw.1, b.1]))).2, b.2⟩
      exact ⟨rfl, by simp [evalT, ab.1, ab.2, Except.bind, bind, hn]⟩
  | _, t, _, .condT h0 h1 h2, _, hr, hw, ht => by
    cases hr with
    | cond r0 r1 r2 =>
      refine andThen (by
        rcases ht with ht | ht | ht
        · exact ht
        · have := (ev_sound ho h1 r1 hw.2.2.2.2.1 (.inr ht)).1; rw [hw.2.1] at this; exact this
        · have := (ev_sound ho h2 r2 hw.2.2.2.2.2 (.inr ht)).1; rw [hw.2.2.1] at this; exact this) fun key => ?_
      have a := (ev_sound ho h0 r0 hw.2.2.2.1 (.inl hw.1)).2
      have b := (ev_sound ho h1 r1 hw.2.2.2.2.1 (.inl (hw.2.1.trans key))).2
      have c := (ev_sound ho h2 r2 hw.2.2.2.2.2 (.inl (hw.2.2.1.trans key))).2
      simp [evalT, a, b, c, asBool, Except.bind, bind]
  | _, t, _, .condF h0 h1 h2, _, hr, hw, ht => by
    cases hr with
    | cond r0 r1 r2 =>
      refine andThen (by
        rcases ht with ht | ht | ht
        · exact ht
        · have := (ev_sound ho h1 r1 hw.2.2.2.2.1 (.inr ht)).1; rw [hw.2.1] at this; exact this
        · have := (ev_sound ho h2 r2 hw.2.2.2.2.2 (.inr ht)).1; rw [hw.2.2.1] at this; exact this) fun key => ?_
      have a := (ev_sound ho h0 r0 hw.2.2.2.1 (.inl hw.1)).2
      have b := (ev_sound ho h1 r1 hw.2.2.2.2.1 (.inl (hw.2.1.trans key))).2
      have c := (ev_sound ho h2 r2 hw.2.2.2.2.2 (.inl (hw.2.2.1.trans key))).2
      simp [evalT, a, b, c, asBool, Except.bind, bind]
  | _, _, _, .select hd h1 h2 hk, _, hr, hw, _ => by
    cases hr with
    | select r1 r2 =>
      have a := ev_sound ho h1 r1 hw.2.2.1 (.inr hd)
      have b := (ev_sound ho h2 r2 hw.2.2.2 (.inl hw.2.1)).2
      obtain ⟨⟨n, hn⟩, -⟩ := hw
      rw [hn] at a
      obtain ⟨a1, a2⟩ := a
      cases a1
      exact ⟨rfl, by simp [evalT, a2, b, asArray, asUint, Except.bind, bind, selectVal, hk]⟩
  | _, _, _, .element hd h1 hk hv, _, hr, hw, _ => by
    cases hr with
    | element r1 =>
      obtain ⟨⟨ts, hts, hi⟩, hw⟩ := hw
      have a := ev_sound ho h1 r1 hw (.inr hd)
      rw [hts] at a
      obtain ⟨a1, a2⟩ := a
      cases a1
      rw [hi] at hk
      cases hk
      exact ⟨rfl, by simp [evalT, a2, Except.bind, bind, hv]⟩
  | _, _, _, .member hd h1 hk hv, _, hr, hw, _ => by
    cases hr with
    | member r1 =>
      obtain ⟨⟨ts, hts, hi⟩, hw⟩ := hw
      have a := ev_sound ho h1 r1 hw (.inr hd)
      rw [hts] at a
      obtain ⟨a1, a2⟩ := a
      cases a1
      rw [hi] at hk
      cases hk
      exact ⟨rfl, by simp [evalT, a2, Except.bind, bind, hv]⟩
  | _, _, _, .array (n := n) (t := t) h, _, hr, hw, ht => by
    cases hr with
    | array r1 =>
      obtain ⟨-, hn, hw⟩ := hw
      obtain ⟨a, b, c⟩ := evS_sound ho h r1 hw hn (by
        rcases ht with ht | ht
        · simp only [TExpr.ty, CType.array.injEq] at ht
          exact .inl ht.2
        · exact .inr ht)
      refine ⟨by simp only [TExpr.ty, a, b], ?_⟩
      simp [evalT, c, Except.bind, bind]
  | _, _, _, .repeat_ h1 h2, _, hr, hw, ht => by
    cases hr with
    | repeat_ r1 r2 =>
      obtain ⟨⟨-, t1⟩, rfl, w1⟩ := hw
      have b := (ev_sound ho h2 r2 (by
        cases r2 <;> assumption) (.inl rfl)).2
      simp only [evalT, Except.ok.injEq, AVal.uint.injEq, true_and] at b
      subst b
      have a := ev_sound ho h1 r1 w1 (by
        rcases ht with ht | ht
        · simp only [TExpr.ty, CType.array.injEq] at ht
          exact .inl (t1.trans ht.2)
        · exact .inr ht)
      refine ⟨by have := a.1; rw [t1] at this; simp only [TExpr.ty, this], ?_⟩
      simp [evalT, a.2, asUint, Except.bind, bind]
  | _, _, _, .struct hD h, _, hr, hw, _ => by
    cases hr with
    | struct hD' _ r1 =>
      rw [hD] at hD'
      cases hD'
      obtain ⟨-, h1, h2⟩ := hw
      have a := evM_sound ho h r1 h1 h2
      exact ⟨rfl, by simp [evalT, a, Except.bind, bind]⟩
  | _, _, _, .tuple h, _, hr, hw, ht => by
    cases hr with
    | tuple r1 =>
      obtain ⟨h1, h2⟩ := hw
      obtain ⟨a, b⟩ := evL_sound ho h r1 h2 (by
        rcases ht with ht | ht
        · simp only [TExpr.ty, CType.tuple.injEq] at ht
          exact .inl (h1.trans ht)
        · exact .inr ht)
      exact ⟨by simp only [TExpr.ty, ← h1, a], by simp [evalT, b, Except.bind, bind]⟩
theorem evL_sound (ho : EnvOk G E env) : ∀ {ss : List SExpr} {ts : List CType} {vs : List (AVal (ZMod p))}, EvL D E ss ts vs → ∀ {es : List (TExpr (ZMod p))}, ReadsL D G ss es →
    WtL es → es.map TExpr.ty = ts ∨ DetL ss → es.map TExpr.ty = ts ∧ evalL env es = .ok vs
  | _, _, _, .nil, _, hr, _, _ => by
    cases hr
    exact ⟨rfl, rfl⟩
  | _, _, _, .cons h h', _, hr, hw, ht => by
    cases hr with
    | cons r1 r2 =>
      have a := ev_sound ho h r1 hw.1 (by
        rcases ht with ht | ht
        · simp only [List.map_cons, List.cons.injEq] at ht
          exact .inl ht.1
        · exact .inr ht.1)
      have b := evL_sound ho h' r2 hw.2 (by
        rcases ht with ht | ht
        · simp only [List.map_cons, List.cons.injEq] at ht
          exact .inl ht.2
        · exact .inr ht.2)
      exact ⟨by simp [a.1, b.1], by simp [evalL, a.2, b.2, Except.bind, bind]⟩
theorem evS_sound (ho : EnvOk G E env) : ∀ {ss : List SSpread} {n : ℕ} {t : CType} {vs : List (AVal (ZMod p))}, EvS D E ss n t vs → ∀ {es : List (TSpread (ZMod p))} {t' : CType}
    {n' : ℕ}, ReadsS D G ss es → WtS t' es → spreadCount t' es n' → t' = t ∨ DetS ss → t' = t ∧ n' = n ∧ evalS env es = .ok vs
  | _, _, _, _, .nil, _, _, _, hr, _, hn, ht => by
    cases hr
    rcases ht with ht | ht
    · exact ⟨ht, hn, rfl⟩
    · exact ht.elim
  | _, _, t, _, .expr h h', _, t', _, hr, hw, hn, ht => by
    cases hr with
    | expr r1 r2 =>
      obtain ⟨k, rfl, hn⟩ := hn
      have key : t' = t := by
        rcases ht with ht | ht | ht
        · exact ht
        · have := (ev_sound ho h r1 hw.1.2 (.inr ht)).1; rw [hw.1.1] at this; exact this
        · exact (evS_sound ho h' r2 hw.2 hn (.inr ht)).1
      have a := (ev_sound ho h r1 hw.1.2 (.inl (hw.1.1.trans key))).2
      obtain ⟨-, b, c⟩ := evS_sound ho h' r2 hw.2 hn (.inl key)
      exact ⟨key, by rw [b], by simp [evalS, a, c, Except.bind, bind]⟩
  | _, _, _, _, .spread hd h h', _, _, _, hr, hw, hn, ht => by
    cases hr with
    | spread r1 r2 =>
      obtain ⟨m, k, hm, rfl, hn⟩ := hn
      have a := ev_sound ho h r1 hw.1 (.inr hd)
      rw [hm] at a
      obtain ⟨a1, a2⟩ := a
      cases a1
      obtain ⟨-, b, c⟩ := evS_sound ho h' r2 hw.2 hn (.inl rfl)
      exact ⟨rfl, by rw [b], by simp [evalS, a2, c, asArray, Except.bind, bind]⟩
theorem evM_sound (ho : EnvOk G E env) : ∀ {names : List Str} {ss : List SExpr} {ms : List (Str × CType)} {vs : List (AVal (ZMod p))}, EvM D E names ss ms vs →
    ∀ {es : List (TExpr (ZMod p))}, ReadsM D G names ss ms es → es.map TExpr.ty = ms.map Prod.snd → WtL es → evalL env es = .ok vs
  | _, _, _, _, .nil, _, hr, _, _ => by
    cases hr
    rfl
  | _, _, _, _, .cons hl h h', _, hr, ht, hw => by
    cases hr with
    | cons hl' r1 r2 =>
      rw [hl] at hl'
      cases hl'
      simp only [List.map_cons, List.cons.injEq] at ht
      have a := (ev_sound ho h r1 hw.1 (.inl ht.1)).2
      have b := evM_sound ho h' r2 ht.2 hw.2
      simp [evalL, a, b, Except.bind, bind]
end

end Zok.Sem
