import Verif.Lemmas.TypedEval

/-
An expression with a value has subexpressions with values, and its value only depends on them: for each kind of expression.
-/

set_option linter.unusedSectionVars false
set_option linter.unusedSimpArgs false

namespace Zok.Typed
open Abi
variable {p : ℕ} [Fact p.Prime] {env env' : TEnv p} {v : AVal (ZMod p)}

theorem fneg_ok {e : TExpr (ZMod p)} (h : evalT env (.fneg  e) = .ok v) : ∃ a, evalT env e = .ok a ∧
    ∀ (env' : TEnv p) e', evalT env' e' = .ok a → evalT env' (.fneg  e') = .ok v := by
  cases he : evalT env e with
  | error => simp only [evalT, he] at h; cases h
  | ok a => exact ⟨a, rfl, fun env' e' g => by rw [← h]; simp only [evalT, he, g]⟩

theorem fpos_ok {e : TExpr (ZMod p)} (h : evalT env (.fpos  e) = .ok v) : ∃ a, evalT env e = .ok a ∧
    ∀ (env' : TEnv p) e', evalT env' e' = .ok a → evalT env' (.fpos  e') = .ok v := by
  cases he : evalT env e with
  | error => simp only [evalT, he] at h; cases h
  | ok a => exact ⟨a, rfl, fun env' e' g => by rw [← h]; simp only [evalT, he, g]⟩

theorem unot_ok {w : UW} {e : TExpr (ZMod p)} (h : evalT env (.unot w e) = .ok v) : ∃ a, evalT env e = .ok a ∧
    ∀ (env' : TEnv p) e', evalT env' e' = .ok a → evalT env' (.unot w e') = .ok v := by
  cases he : evalT env e with
  | error => simp only [evalT, he] at h; cases h
  | ok a => exact ⟨a, rfl, fun env' e' g => by rw [← h]; simp only [evalT, he, g]⟩

theorem uneg_ok {w : UW} {e : TExpr (ZMod p)} (h : evalT env (.uneg w e) = .ok v) : ∃ a, evalT env e = .ok a ∧
    ∀ (env' : TEnv p) e', evalT env' e' = .ok a → evalT env' (.uneg w e') = .ok v := by
  cases he : evalT env e with
  | error => simp only [evalT, he] at h; cases h
  | ok a => exact ⟨a, rfl, fun env' e' g => by rw [← h]; simp only [evalT, he, g]⟩

theorem upos_ok {w : UW} {e : TExpr (ZMod p)} (h : evalT env (.upos w e) = .ok v) : ∃ a, evalT env e = .ok a ∧
    ∀ (env' : TEnv p) e', evalT env' e' = .ok a → evalT env' (.upos w e') = .ok v := by
  cases he : evalT env e with
  | error => simp only [evalT, he] at h; cases h
  | ok a => exact ⟨a, rfl, fun env' e' g => by rw [← h]; simp only [evalT, he, g]⟩

theorem bnot_ok {e : TExpr (ZMod p)} (h : evalT env (.bnot  e) = .ok v) : ∃ a, evalT env e = .ok a ∧
    ∀ (env' : TEnv p) e', evalT env' e' = .ok a → evalT env' (.bnot  e') = .ok v := by
  cases he : evalT env e with
  | error => simp only [evalT, he] at h; cases h
  | ok a => exact ⟨a, rfl, fun env' e' g => by rw [← h]; simp only [evalT, he, g]⟩

theorem fbin_ok {op : FOp} {l r : TExpr (ZMod p)} (h : evalT env (.fbin op l r) = .ok v) : ∃ a b, evalT env l = .ok a ∧ evalT env r = .ok b ∧
    ∀ (env' : TEnv p) l' r', evalT env' l' = .ok a → evalT env' r' = .ok b → evalT env' (.fbin op l' r') = .ok v := by
  cases hl : evalT env l with
  | error => simp only [evalT, hl] at h; cases h
  | ok a => cases hr : evalT env r with
    | error => simp only [evalT, hl, hr] at h; change (((asField) a).bind _) = _ at h; obtain ⟨_, _, h⟩ := bind_ok h; cases h
    | ok b => exact ⟨a, b, rfl, rfl, fun env' l' r' g1 g2 => by rw [← h]; simp only [evalT, hl, hr, g1, g2]⟩

theorem fubin_ok {op : FUOp} {l r : TExpr (ZMod p)} (h : evalT env (.fubin op l r) = .ok v) : ∃ a b, evalT env l = .ok a ∧ evalT env r = .ok b ∧
    ∀ (env' : TEnv p) l' r', evalT env' l' = .ok a → evalT env' r' = .ok b → evalT env' (.fubin op l' r') = .ok v := by
  cases hl : evalT env l with
  | error => simp only [evalT, hl] at h; cases h
  | ok a => cases hr : evalT env r with
    | error => simp only [evalT, hl, hr] at h; change (((asField) a).bind _) = _ at h; obtain ⟨_, _, h⟩ := bind_ok h; cases h
    | ok b => exact ⟨a, b, rfl, rfl, fun env' l' r' g1 g2 => by rw [← h]; simp only [evalT, hl, hr, g1, g2]⟩

theorem ubin_ok {w : UW} {op : UOp} {l r : TExpr (ZMod p)} (h : evalT env (.ubin w op l r) = .ok v) : ∃ a b, evalT env l = .ok a ∧ evalT env r = .ok b ∧
    ∀ (env' : TEnv p) l' r', evalT env' l' = .ok a → evalT env' r' = .ok b → evalT env' (.ubin w op l' r') = .ok v := by
  cases hl : evalT env l with
  | error => simp only [evalT, hl] at h; cases h
  | ok a => cases hr : evalT env r with
    | error => simp only [evalT, hl, hr] at h; change (((asUint w) a).bind _) = _ at h; obtain ⟨_, _, h⟩ := bind_ok h; cases h
    | ok b => exact ⟨a, b, rfl, rfl, fun env' l' r' g1 g2 => by rw [← h]; simp only [evalT, hl, hr, g1, g2]⟩

theorem bbin_ok {op : BOp} {l r : TExpr (ZMod p)} (h : evalT env (.bbin op l r) = .ok v) : ∃ a b, evalT env l = .ok a ∧ evalT env r = .ok b ∧
    ∀ (env' : TEnv p) l' r', evalT env' l' = .ok a → evalT env' r' = .ok b → evalT env' (.bbin op l' r') = .ok v := by
  cases hl : evalT env l with
  | error => simp only [evalT, hl] at h; cases h
  | ok a => cases hr : evalT env r with
    | error => simp only [evalT, hl, hr] at h; change (((asBool) a).bind _) = _ at h; obtain ⟨_, _, h⟩ := bind_ok h; cases h
    | ok b => exact ⟨a, b, rfl, rfl, fun env' l' r' g1 g2 => by rw [← h]; simp only [evalT, hl, hr, g1, g2]⟩

theorem fcmp_ok {op : COp} {l r : TExpr (ZMod p)} (h : evalT env (.fcmp op l r) = .ok v) : ∃ a b, evalT env l = .ok a ∧ evalT env r = .ok b ∧
    ∀ (env' : TEnv p) l' r', (l'.isConst || r'.isConst) = (l.isConst || r.isConst) → evalT env' l' = .ok a → evalT env' r' = .ok b → evalT env' (.fcmp op l' r') = .ok v := by
  cases hl : evalT env l with
  | error => simp only [evalT, hl] at h; cases h
  | ok a => cases hr : evalT env r with
    | error => simp only [evalT, hl, hr] at h; change (((asField) a).bind _) = _ at h; obtain ⟨_, _, h⟩ := bind_ok h; cases h
    | ok b => exact ⟨a, b, rfl, rfl, fun env' l' r' gc g1 g2 => by rw [← h]; simp only [evalT, hl, hr, g1, g2, gc]⟩

theorem ucmp_ok {op : COp} {l r : TExpr (ZMod p)} (h : evalT env (.ucmp op l r) = .ok v) : ∃ a b, evalT env l = .ok a ∧ evalT env r = .ok b ∧
    ∀ (env' : TEnv p) l' r', l'.ty = l.ty → evalT env' l' = .ok a → evalT env' r' = .ok b → evalT env' (.ucmp op l' r') = .ok v := by
  cases hl : evalT env l with
  | error => simp only [evalT, hl] at h; cases h
  | ok a => cases hr : evalT env r with
    | error => simp only [evalT, hl, hr] at h; change (((asUintOf l.ty) a).bind _) = _ at h; obtain ⟨_, _, h⟩ := bind_ok h; cases h
    | ok b => exact ⟨a, b, rfl, rfl, fun env' l' r' gc g1 g2 => by rw [← h]; simp only [evalT, hl, hr, g1, g2, gc]⟩

theorem eq_ok  {l r : TExpr (ZMod p)} (h : evalT env (.eq  l r) = .ok v) : ∃ a b, evalT env l = .ok a ∧ evalT env r = .ok b ∧
    ∀ (env' : TEnv p) l' r', evalT env' l' = .ok a → evalT env' r' = .ok b → evalT env' (.eq  l' r') = .ok v := by
  cases hl : evalT env l with
  | error => simp only [evalT, hl] at h; cases h
  | ok a => cases hr : evalT env r with
    | error => simp only [evalT, hl, hr] at h; cases h
    | ok b => exact ⟨a, b, rfl, rfl, fun env' l' r' g1 g2 => by rw [← h]; simp only [evalT, hl, hr, g1, g2]⟩

theorem select_ok {t : CType} {l r : TExpr (ZMod p)} (h : evalT env (.select t l r) = .ok v) : ∃ a b, evalT env l = .ok a ∧ evalT env r = .ok b ∧
    ∀ (env' : TEnv p) l' r', evalT env' l' = .ok a → evalT env' r' = .ok b → evalT env' (.select t l' r') = .ok v := by
  cases hl : evalT env l with
  | error => simp only [evalT, hl] at h; cases h
  | ok a => cases hr : evalT env r with
    | error => simp only [evalT, hl, hr] at h; change (((asArray) a).bind _) = _ at h; obtain ⟨_, _, h⟩ := bind_ok h; cases h
    | ok b => exact ⟨a, b, rfl, rfl, fun env' l' r' g1 g2 => by rw [← h]; simp only [evalT, hl, hr, g1, g2]⟩

theorem repeat__ok {t : CType} {n : ℕ} {l r : TExpr (ZMod p)} (h : evalT env (.repeat_ t n l r) = .ok v) : ∃ a b, evalT env l = .ok a ∧ evalT env r = .ok b ∧
    ∀ (env' : TEnv p) l' r', evalT env' l' = .ok a → evalT env' r' = .ok b → evalT env' (.repeat_ t n l' r') = .ok v := by
  cases hl : evalT env l with
  | error => simp only [evalT, hl] at h; cases h
  | ok a => cases hr : evalT env r with
    | error => simp only [evalT, hl, hr] at h; cases h
    | ok b => exact ⟨a, b, rfl, rfl, fun env' l' r' g1 g2 => by rw [← h]; simp only [evalT, hl, hr, g1, g2]⟩

theorem cond_ok {t : CType} {c l r : TExpr (ZMod p)} (h : evalT env (.cond t c l r) = .ok v) : ∃ k a b, evalT env c = .ok (.bool k) ∧ evalT env l = .ok a ∧
    evalT env r = .ok b ∧ v = (if k then a else b) ∧ ∀ (env' : TEnv p) t' c' l' r', evalT env' c' = .ok (.bool k) → evalT env' l' = .ok a → evalT env' r' = .ok b →
    evalT env' (.cond t' c' l' r') = .ok v := by
  simp only [evalT] at h
  obtain ⟨k, h1, h⟩ := bind_ok h
  obtain ⟨k', h1, h2⟩ := bind_ok h1
  rw [asBool_ok h2] at h1
  obtain ⟨a, h3, h⟩ := bind_ok h
  obtain ⟨b, h4, h⟩ := bind_ok h
  cases h
  refine ⟨k, a, b, h1, h3, h4, rfl, fun env' t' c' l' r' g1 g2 g3 => ?_⟩
  simp only [evalT, g1, g2, g3]
  rfl

theorem slice_ok {t : CType} {n : ℕ} {e lo hi : TExpr (ZMod p)} (h : evalT env (.slice t n e lo hi) = .ok v) : ∃ a l r, evalT env e = .ok a ∧
    evalT env lo = .ok l ∧ evalT env hi = .ok r ∧ ∀ (env' : TEnv p) e' lo' hi', evalT env' e' = .ok a → evalT env' lo' = .ok l → evalT env' hi' = .ok r →
    evalT env' (.slice t n e' lo' hi') = .ok v := by
  have h0 := h
  simp only [evalT] at h
  obtain ⟨vs, h1, h⟩ := bind_ok h
  obtain ⟨a, h1, _⟩ := bind_ok h1
  obtain ⟨l, h2, h⟩ := bind_ok h
  obtain ⟨l, h2, _⟩ := bind_ok h2
  obtain ⟨r, h3, h⟩ := bind_ok h
  obtain ⟨r, h3, _⟩ := bind_ok h3
  exact ⟨a, l, r, h1, h2, h3, fun env' e' lo' hi' g1 g2 g3 => by rw [← h0]; simp only [evalT, h1, h2, h3, g1, g2, g3]⟩

theorem member_ok {t : CType} {m : Str} {e : TExpr (ZMod p)} (h : evalT env (.member t e m) = .ok v) : ∃ a, evalT env e = .ok a ∧
    ∀ (env' : TEnv p) e', evalT env' e' = .ok a → evalT env' (.member t e' m) = .ok v := by
  cases he : evalT env e with
  | error => simp only [evalT, he] at h; cases h
  | ok a => exact ⟨a, rfl, fun env' e' g => by rw [← h]; simp only [evalT, he, g]⟩

theorem element_ok {t : CType} {i : ℕ} {e : TExpr (ZMod p)} (h : evalT env (.element t e i) = .ok v) : ∃ a, evalT env e = .ok a ∧
    ∀ (env' : TEnv p) e', evalT env' e' = .ok a → evalT env' (.element t e' i) = .ok v := by
  cases he : evalT env e with
  | error => simp only [evalT, he] at h; cases h
  | ok a => exact ⟨a, rfl, fun env' e' g => by rw [← h]; simp only [evalT, he, g]⟩

theorem array_ok {t : CType} {n : ℕ} {es : List (TSpread (ZMod p))} (h : evalT env (.array t n es) = .ok v) : ∃ vs, evalS env es = .ok vs ∧ v = .array vs ∧
    ∀ (env' : TEnv p) es', evalS env' es' = .ok vs → evalT env' (.array t n es') = .ok v := by
  cases he : evalS env es with
  | error => simp only [evalT, he] at h; cases h
  | ok a => exact ⟨a, rfl, by simp only [evalT, he] at h; cases h; rfl, fun env' e' g => by rw [← h]; simp only [evalT, he, g]⟩

theorem struct_ok {ms : List (Str × CType)} {es : List (TExpr (ZMod p))} (h : evalT env (.struct ms es) = .ok v) : ∃ vs, evalL env es = .ok vs ∧
    ∀ (env' : TEnv p) es', evalL env' es' = .ok vs → evalT env' (.struct ms es') = .ok v := by
  cases he : evalL env es with
  | error => simp only [evalT, he] at h; cases h
  | ok a => exact ⟨a, rfl, fun env' e' g => by rw [← h]; simp only [evalT, he, g]⟩

theorem tuple_ok {ts : List CType} {es : List (TExpr (ZMod p))} (h : evalT env (.tuple ts es) = .ok v) : ∃ vs, evalL env es = .ok vs ∧
    ∀ (env' : TEnv p) es', evalL env' es' = .ok vs → evalT env' (.tuple ts es') = .ok v := by
  cases he : evalL env es with
  | error => simp only [evalT, he] at h; cases h
  | ok a => exact ⟨a, rfl, fun env' e' g => by rw [← h]; simp only [evalT, he, g]⟩

theorem cons_ok {e : TExpr (ZMod p)} {es : List (TExpr (ZMod p))} {vs : List (AVal (ZMod p))} (h : evalL env (e :: es) = .ok vs) : ∃ a as, evalT env e = .ok a ∧
    evalL env es = .ok as ∧ vs = a :: as ∧ ∀ (env' : TEnv p) e' es', evalT env' e' = .ok a → evalL env' es' = .ok as → evalL env' (e' :: es') = .ok vs := by
  simp only [evalL] at h
  obtain ⟨a, h1, h⟩ := bind_ok h
  obtain ⟨as, h2, h⟩ := bind_ok h
  cases h
  exact ⟨a, as, h1, h2, rfl, fun env' e' es' g1 g2 => by simp only [evalL, g1, g2]; rfl⟩

theorem expr_ok {e : TExpr (ZMod p)} {es : List (TSpread (ZMod p))} {vs : List (AVal (ZMod p))} (h : evalS env (.expr e :: es) = .ok vs) : ∃ a as,
    evalT env e = .ok a ∧ evalS env es = .ok as ∧ vs = a :: as ∧ ∀ (env' : TEnv p) e' es', evalT env' e' = .ok a → evalS env' es' = .ok as →
    evalS env' (.expr e' :: es') = .ok vs := by
  simp only [evalS] at h
  obtain ⟨a, h1, h⟩ := bind_ok h
  obtain ⟨as, h2, h⟩ := bind_ok h
  cases h
  exact ⟨a, as, h1, h2, rfl, fun env' e' es' g1 g2 => by simp only [evalS, g1, g2]; rfl⟩

theorem spread_ok {e : TExpr (ZMod p)} {es : List (TSpread (ZMod p))} {vs : List (AVal (ZMod p))} (h : evalS env (.spread e :: es) = .ok vs) : ∃ a as,
    evalT env e = .ok (.array a) ∧ evalS env es = .ok as ∧ vs = a ++ as ∧ ∀ (env' : TEnv p) e' es', evalT env' e' = .ok (.array a) → evalS env' es' = .ok as →
    evalS env' (.spread e' :: es') = .ok vs := by
  simp only [evalS] at h
  obtain ⟨a, h1, h⟩ := bind_ok h
  obtain ⟨a', h1, h2⟩ := bind_ok h1
  rw [asArray_ok h2] at h1
  obtain ⟨as, h3, h⟩ := bind_ok h
  cases h
  exact ⟨a, as, h1, h3, rfl, fun env' e' es' g1 g2 => by simp only [evalS, g1, g2]; rfl⟩

theorem ident_ok {x : TId} {t : CType} (h : evalT env (.ident x t) = .ok v) : env x = some v ∧ HasType t v := by
  simp only [evalT] at h
  split at h
  · split at h
    · cases h; exact ⟨by assumption, by assumption⟩
    · cases h
  · cases h

theorem ident_of {x : TId} {t : CType} (h : env x = some v) (ht : HasType t v) : evalT env (.ident x t) = .ok v := by
  simp only [evalT, h, ht, if_true]

end Zok.Typed
