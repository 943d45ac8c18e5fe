import Verif.Model.AssemblyTransformer
import Verif.Spec.Assembly
import Verif.Model.DeadCode
import Verif.Lemmas.PropagateExpr

/-
The constraints of assembly blocks keep their meaning.
-/

set_option linter.unusedSectionVars false

namespace Zok
open Prop' Dce
namespace Atr
variable {p : ℕ} {Z : Type} [Fact p.Prime]

theorem _root_.Zok.FExpr.Degree.mono {d d' : ℕ} {e : FExpr (ZMod p)} (h : e.Degree d) (hd : d ≤ d') : e.Degree d' := by
  induction h with
  | value => exact .value
  | ident h => exact .ident (h.trans hd)
  | add _ _ ih1 ih2 => exact .add (ih1 hd) (ih2 hd)
  | sub _ _ ih1 ih2 => exact .sub (ih1 hd) (ih2 hd)
  | mult h1 h2 h => exact .mult h1 h2 (h.trans hd)

/-- The value of a variable, zero if it is not a field element. -/
def valOf (env : ZEnv p) (x : ZId) : ZMod p := match env x with
  | some (.field a) => a
  | _ => 0

/-- The variables are field elements. -/
def Bound (env : ZEnv p) (xs : List ZId) : Prop := ∀ x ∈ xs, env x = some (.field (valOf env x))

/-- The value of a polynomial. -/
def pval (v : ZId → ZMod p) : FExpr (ZMod p) → ZMod p
  | .value n => n
  | .ident x => v x
  | .add l r => pval v l + pval v r
  | .sub l r => pval v l - pval v r
  | .mult l r => pval v l * pval v r
  | _ => 0

theorem bound_append {env : ZEnv p} {xs ys : List ZId} : Bound env (xs ++ ys) ↔ Bound env xs ∧ Bound env ys := by
  simp only [Bound, List.mem_append]
  exact ⟨fun h => ⟨fun x hx => h x (Or.inl hx), fun x hx => h x (Or.inr hx)⟩, fun h x hx => hx.elim (h.1 x) (h.2 x)⟩

theorem poly_eval {env : ZEnv p} {d : ℕ} {e : FExpr (ZMod p)} (h : e.Degree d) :
    (Bound env (idsF e) → evalF env e = .ok (pval (valOf env) e)) ∧ (¬ Bound env (idsF e) → evalF env e = .error .stuck) := by
  induction h with
  | value => exact ⟨fun _ => by simp only [evalF, pval], fun h => absurd (by simp [Bound, idsF]) h⟩
  | @ident d x _ =>
    refine ⟨fun h => ?_, fun h => ?_⟩
    · have := h x (by simp [idsF])
      simp only [evalF, this, pval]
    · simp only [evalF]
      split
      · rename_i v hv
        exact absurd (fun y hy => by simp only [idsF, List.mem_singleton] at hy; subst hy; simp only [valOf, hv]) h
      · rfl
  | @add d l r h1 h2 ih1 ih2 | @sub d l r h1 h2 ih1 ih2 | @mult d m n l r h1 h2 _ ih1 ih2 =>
    simp only [idsF, bound_append]
    refine ⟨fun h => ?_, fun h => ?_⟩
    · simp only [evalF, ih1.1 h.1, ih2.1 h.2, exc_ok_bind, pval]
    · simp only [evalF]
      by_cases h3 : Bound env (idsF l)
      · rw [ih1.1 h3, ih2.2 (fun h4 => h ⟨h3, h4⟩)]; rfl
      · rw [ih1.2 h3]; rfl

/-- The value of a linear-quadratic combination. -/
def lval (v : ZId → ZMod p) (ts : List (ZMod p × ZId)) : ZMod p := (ts.map fun t => t.1 * v t.2).sum
/-- The value of the quadratic part. -/
def qval (v : ZId → ZMod p) (ts : List (ZMod p × ZId × ZId)) : ZMod p := (ts.map fun t => t.1 * v t.2.1 * v t.2.2).sum
/-- The value of a linear-quadratic combination. -/
def cval (v : ZId → ZMod p) (q : Lqc p) : ZMod p := q.constant + lval v q.linear + qval v q.quadratic
/-- The variables of a linear-quadratic combination. -/
def cvars (q : Lqc p) : List ZId := q.linear.map Prod.snd ++ q.quadratic.flatMap fun t => [t.2.1, t.2.2]

variable (v : ZId → ZMod p)
theorem lval_append (a b : List (ZMod p × ZId)) : lval v (a ++ b) = lval v a + lval v b := by simp [lval]
theorem qval_append (a b : List (ZMod p × ZId × ZId)) : qval v (a ++ b) = qval v a + qval v b := by simp [qval]
theorem lval_neg (a : List (ZMod p × ZId)) : lval v (a.map fun t => (0 - t.1, t.2)) = - lval v a := by
  induction a with
  | nil => simp [lval]
  | cons t ts ih => simp only [lval, List.map_cons, List.sum_cons] at ih ⊢; rw [ih]; ring
theorem qval_neg (a : List (ZMod p × ZId × ZId)) : qval v (a.map fun t => (0 - t.1, t.2)) = - qval v a := by
  induction a with
  | nil => simp [qval]
  | cons t ts ih => simp only [qval, List.map_cons, List.sum_cons] at ih ⊢; rw [ih]; ring
theorem lval_scale (a : List (ZMod p × ZId)) (c : ZMod p) : lval v (a.map fun t => (t.1 * c, t.2)) = lval v a * c := by
  induction a with
  | nil => simp [lval]
  | cons t ts ih => simp only [lval, List.map_cons, List.sum_cons] at ih ⊢; rw [ih]; ring
theorem qval_scale (a : List (ZMod p × ZId × ZId)) (c : ZMod p) : qval v (a.map fun t => (t.1 * c, t.2)) = qval v a * c := by
  induction a with
  | nil => simp [qval]
  | cons t ts ih => simp only [qval, List.map_cons, List.sum_cons] at ih ⊢; rw [ih]; ring
theorem qval_row (s : ZMod p × ZId) (b : List (ZMod p × ZId)) :
    qval v (b.map fun t => (s.1 * t.1, s.2, t.2)) = s.1 * v s.2 * lval v b := by
  induction b with
  | nil => simp [qval, lval]
  | cons t ts ih => simp only [qval, lval, List.map_cons, List.sum_cons] at ih ⊢; rw [ih]; ring
theorem qval_prod (a b : List (ZMod p × ZId)) :
    qval v (a.flatMap fun s => b.map fun t => (s.1 * t.1, s.2, t.2)) = lval v a * lval v b := by
  induction a with
  | nil => simp [qval, lval]
  | cons s ss ih =>
    rw [List.flatMap_cons, qval_append, ih, qval_row]
    simp only [lval, List.map_cons, List.sum_cons]; ring

theorem poly_lqc {d : ℕ} {e : FExpr (ZMod p)} (h : e.Degree d) (hd : d ≤ 2) : ∃ q, Lqc.tryFrom e = some q ∧ cval v q = pval v e ∧
    (d ≤ 1 → q.quadratic = []) ∧ (d = 0 → q.linear = []) := by
  induction h with
  | value => exact ⟨_, rfl, by simp [cval, lval, qval, pval], fun _ => rfl, fun _ => rfl⟩
  | ident h => exact ⟨_, rfl, by simp [cval, lval, qval, pval], fun _ => rfl, fun h' => by omega⟩
  | add _ _ ih1 ih2 =>
    obtain ⟨a, h1, h2, h3, h4⟩ := ih1 hd
    obtain ⟨b, h5, h6, h7, h8⟩ := ih2 hd
    refine ⟨a.add b, by simp [Lqc.tryFrom, h1, h5], ?_, fun h => by simp [Lqc.add, h3 h, h7 h], fun h => by simp [Lqc.add, h4 h, h8 h]⟩
    simp only [cval, Lqc.add, lval_append, qval_append, pval, ← h2, ← h6]; ring
  | sub _ _ ih1 ih2 =>
    obtain ⟨a, h1, h2, h3, h4⟩ := ih1 hd
    obtain ⟨b, h5, h6, h7, h8⟩ := ih2 hd
    refine ⟨a.sub b, by simp [Lqc.tryFrom, h1, h5], ?_, fun h => by simp [Lqc.sub, h3 h, h7 h], fun h => by simp [Lqc.sub, h4 h, h8 h]⟩
    simp only [cval, Lqc.sub, lval_append, qval_append, lval_neg, qval_neg, pval, ← h2, ← h6]; ring
  | @mult d m n l r _ _ hmn ih1 ih2 =>
    obtain ⟨a, h1, h2, h3, h4⟩ := ih1 (by omega)
    obtain ⟨b, h5, h6, h7, h8⟩ := ih2 (by omega)
    have hq : a.quadratic = [] ∨ b.quadratic = [] := by
      by_cases hm : m ≤ 1
      · exact Or.inl (h3 hm)
      · exact Or.inr (h7 (by omega))
    have h9 : qval v a.quadratic * lval v b.linear = 0 := by
      by_cases hm : m ≤ 1
      · rw [h3 hm]; simp [qval]
      · rw [h8 (by omega)]; simp [lval]
    have h10 : lval v a.linear * qval v b.quadratic = 0 := by
      by_cases hn : n ≤ 1
      · rw [h7 hn]; simp [qval]
      · rw [h4 (by omega)]; simp [lval]
    have h11 : qval v a.quadratic * qval v b.quadratic = 0 := by
      rcases hq with hq | hq <;> rw [hq] <;> simp [qval]
    refine ⟨_, by
      simp only [Lqc.tryFrom, h1, h5, Option.bind_eq_bind, Option.bind_some, Lqc.tryMul]
      rw [if_neg]
      rcases hq with hq | hq <;> simp [hq], ?_, fun h => ?_, fun h => ?_⟩
    · simp only [cval, lval_append, qval_append, lval_scale, qval_scale, qval_prod, pval, ← h2, ← h6]
      linear_combination (-1 : ZMod p) * (h9 + h10 + h11)
    · simp only [List.append_eq_nil_iff, List.map_eq_nil_iff]
      refine ⟨⟨h3 (by omega), h7 (by omega)⟩, ?_⟩
      by_cases hm : m = 0
      · simp [h4 hm]
      · simp [h8 (by omega)]
    · simp only [List.append_eq_nil_iff, List.map_eq_nil_iff]
      exact ⟨h4 (by omega), h8 (by omega)⟩

theorem lqc_poly : ∀ (e : FExpr (ZMod p)) (q : Lqc p), Lqc.tryFrom e = some q → e.IsPoly ∧ ∀ x ∈ cvars q, x ∈ idsF e
  | .value n, q, h => by
    simp only [Lqc.tryFrom, Option.some.injEq] at h; subst h
    exact ⟨⟨0, .value⟩, by simp [cvars]⟩
  | .ident x, q, h => by
    simp only [Lqc.tryFrom, Option.some.injEq] at h; subst h
    exact ⟨⟨1, .ident le_rfl⟩, by simp [cvars, idsF]⟩
  | .add l r, q, h => by
    simp only [Lqc.tryFrom, Option.bind_eq_bind, Option.bind_eq_some_iff, Option.some.injEq] at h
    obtain ⟨a, h1, b, h2, rfl⟩ := h
    obtain ⟨⟨m, h3⟩, h4⟩ := lqc_poly l a h1
    obtain ⟨⟨n, h5⟩, h6⟩ := lqc_poly r b h2
    refine ⟨⟨_, .add (h3.mono (le_max_left m n)) (h5.mono (le_max_right m n))⟩, fun x hx => ?_⟩
    have : x ∈ cvars a ∨ x ∈ cvars b := by
      simp only [cvars, Lqc.add, List.map_append, List.flatMap_append, List.mem_append] at hx ⊢; tauto
    rw [idsF, List.mem_append]
    exact this.imp (h4 x) (h6 x)
  | .sub l r, q, h => by
    simp only [Lqc.tryFrom, Option.bind_eq_bind, Option.bind_eq_some_iff, Option.some.injEq] at h
    obtain ⟨a, h1, b, h2, rfl⟩ := h
    obtain ⟨⟨m, h3⟩, h4⟩ := lqc_poly l a h1
    obtain ⟨⟨n, h5⟩, h6⟩ := lqc_poly r b h2
    refine ⟨⟨_, .sub (h3.mono (le_max_left m n)) (h5.mono (le_max_right m n))⟩, fun x hx => ?_⟩
    have : x ∈ cvars a ∨ x ∈ cvars b := by
      simp only [cvars, Lqc.sub, List.map_append, List.flatMap_append, List.mem_append, List.map_map, List.flatMap_map] at hx ⊢
      simp only [Function.comp_def] at hx
      tauto
    rw [idsF, List.mem_append]
    exact this.imp (h4 x) (h6 x)
  | .mult l r, q, h => by
    simp only [Lqc.tryFrom, Option.bind_eq_bind, Option.bind_eq_some_iff] at h
    obtain ⟨a, h1, b, h2, h⟩ := h
    obtain ⟨⟨m, h3⟩, h4⟩ := lqc_poly l a h1
    obtain ⟨⟨n, h5⟩, h6⟩ := lqc_poly r b h2
    simp only [Lqc.tryMul] at h
    split at h
    · cases h
    simp only [Option.some.injEq] at h
    subst h
    refine ⟨⟨_, .mult h3 h5 le_rfl⟩, fun x hx => ?_⟩
    have : x ∈ cvars a ∨ x ∈ cvars b := by
      simp only [cvars, List.map_append, List.flatMap_append, List.mem_append, List.map_map, List.flatMap_map, List.mem_map,
        List.mem_flatMap, Function.comp_def] at hx ⊢
      rcases hx with (⟨t, h7, rfl⟩ | ⟨t, h7, rfl⟩) | (⟨t, h7, h8⟩ | ⟨t, h7, h8⟩) | ⟨t, ⟨s, h7, u, h8, rfl⟩, h9⟩
      · exact Or.inl (Or.inl ⟨t, h7, rfl⟩)
      · exact Or.inr (Or.inl ⟨t, h7, rfl⟩)
      · exact Or.inl (Or.inr ⟨t, h7, h8⟩)
      · exact Or.inr (Or.inr ⟨t, h7, h8⟩)
      · simp only [List.mem_cons, List.not_mem_nil, or_false] at h9
        rcases h9 with rfl | rfl
        · exact Or.inl (Or.inl ⟨s, h7, rfl⟩)
        · exact Or.inr (Or.inl ⟨u, h8, rfl⟩)
    rw [idsF, List.mem_append]
    exact this.imp (h4 x) (h6 x)
  | .select _ _, q, h | .div _ _, q, h | .pow _ _, q, h | .and _ _, q, h | .or _ _, q, h | .xor _ _, q, h
  | .leftShift _ _, q, h | .rightShift _ _, q, h | .cond _ _ _, q, h => by simp [Lqc.tryFrom] at h

end Atr
end Zok
