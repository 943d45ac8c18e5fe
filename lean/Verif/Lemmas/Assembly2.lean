import Verif.Lemmas.Assembly
import Verif.Spec.ZirExec

set_option linter.unusedSectionVars false

namespace Zok
open Prop' Dce
namespace Atr
variable {p : ℕ} {Z : Type} [Fact p.Prime]

/-- Folding a polynomial without known constants succeeds and keeps its value. -/
theorem prop_poly {d : ℕ} {e : FExpr (ZMod p)} (h : e.Degree d) :
    ∃ e', propF (fun _ => none) e = .ok e' ∧ ∀ env a, evalF env e = .ok a → evalF env e' = .ok a := by
  induction h with
  | value => exact ⟨_, by simp only [propF], fun _ _ h => h⟩
  | ident => exact ⟨_, by simp only [propF], fun _ _ h => h⟩
  | add _ _ ih1 ih2 =>
    obtain ⟨a, h1, h2⟩ := ih1
    obtain ⟨b, h3, h4⟩ := ih2
    refine ⟨foldAdd a b, by simp only [propF, h1, h3, exc_ok_bind], fun env c h => ?_⟩
    simp only [evalF] at h
    obtain ⟨x, h5, h⟩ := exc_bind_ok h
    obtain ⟨y, h6, h⟩ := exc_bind_ok h
    cases h
    exact (ev_foldAdd (S := False) (.of_eq (h2 env x h5)) (.of_eq (h4 env y h6))).false_eq
  | sub _ _ ih1 ih2 =>
    obtain ⟨a, h1, h2⟩ := ih1
    obtain ⟨b, h3, h4⟩ := ih2
    refine ⟨foldSub a b, by simp only [propF, h1, h3, exc_ok_bind], fun env c h => ?_⟩
    simp only [evalF] at h
    obtain ⟨x, h5, h⟩ := exc_bind_ok h
    obtain ⟨y, h6, h⟩ := exc_bind_ok h
    cases h
    exact (ev_foldSub (S := False) (.of_eq (h2 env x h5)) (.of_eq (h4 env y h6))).false_eq
  | mult _ _ _ ih1 ih2 =>
    obtain ⟨a, h1, h2⟩ := ih1
    obtain ⟨b, h3, h4⟩ := ih2
    refine ⟨foldMult a b, by simp only [propF, h1, h3, exc_ok_bind], fun env c h => ?_⟩
    simp only [evalF] at h
    obtain ⟨x, h5, h⟩ := exc_bind_ok h
    obtain ⟨y, h6, h⟩ := exc_bind_ok h
    cases h
    exact (ev_foldMult (S := False) (.of_eq (h2 env x h5)) (.of_eq (h4 env y h6))).false_eq

/-- A polynomial with these variables and this value. -/
def Is (e : FExpr (ZMod p)) (xs : List ZId) (w : (ZId → ZMod p) → ZMod p) : Prop :=
  e.Degree 2 ∧ (∀ x ∈ idsF e, x ∈ xs) ∧ ∀ v, pval v e = w v

theorem linearSum_is (ts : List (ZMod p × ZId)) (xs : List ZId) (hx : ∀ t ∈ ts, t.2 ∈ xs) :
    Is (linearSum ts) xs (fun v => lval v ts) := by
  have H : ∀ (ts : List (ZMod p × ZId)) (acc : FExpr (ZMod p)) (w), (∀ t ∈ ts, t.2 ∈ xs) → Is acc xs w →
      Is (ts.foldl (fun acc t => .add acc (.mult (.value t.1) (.ident t.2))) acc) xs (fun v => w v + lval v ts) := by
    intro ts
    induction ts with
    | nil => intro acc w _ h; simpa [lval] using h
    | cons t ts ih =>
      intro acc w hx h
      have h1 : Is (.add acc (.mult (.value t.1) (.ident t.2))) xs (fun v => w v + t.1 * v t.2) := by
        refine ⟨.add h.1 (.mult (a := 0) (b := 1) .value (.ident le_rfl) (by omega)), fun x hx' => ?_, fun v => by simp only [pval, h.2.2]⟩
        simp only [idsF, List.nil_append, List.mem_append, List.mem_singleton] at hx'
        rcases hx' with hx' | rfl
        · exact h.2.1 x hx'
        · exact hx t (by simp)
      have h2 := ih _ _ (fun t ht => hx t (by simp [ht])) h1
      refine ⟨h2.1, h2.2.1, fun v => ?_⟩
      rw [List.foldl_cons, h2.2.2 v]
      simp only [lval, List.map_cons, List.sum_cons]; ring
  have := H ts (.value 0) (fun _ => 0) hx ⟨.value, by simp [idsF], fun v => by simp only [pval]⟩
  exact ⟨this.1, this.2.1, fun v => by rw [linearSum, this.2.2 v]; simp⟩

theorem cofactor_is (x : ZId) (xs : List ZId) : ∀ (ts : List (ZMod p × ZId × ZId)) (acc : FExpr (ZMod p)) (w : (ZId → ZMod p) → ZMod p) (e : FExpr (ZMod p)),
    (∀ t ∈ ts, t.2.1 ∈ xs ∧ t.2.2 ∈ xs) → acc.Degree 1 → (∀ y ∈ idsF acc, y ∈ xs) → (∀ v, pval v acc = w v) →
    cofactor x ts acc = some e → e.Degree 1 ∧ (∀ y ∈ idsF e, y ∈ xs) ∧ ∀ v, pval v e * v x = w v * v x - qval v ts
  | [], acc, w, e, _, h1, h2, h3, h => by
    simp only [cofactor, Option.some.injEq] at h; subst h
    exact ⟨h1, h2, fun v => by simp [h3, qval]⟩
  | t :: ts, acc, w, e, hx, h1, h2, h3, h => by
    simp only [cofactor, Option.bind_eq_bind, Option.bind_eq_some_iff] at h
    obtain ⟨y, h4, h⟩ := h
    have h5 : y ∈ xs ∧ ∀ v : ZId → ZMod p, v y * v x = v t.2.1 * v t.2.2 := by
      simp only [otherFactor] at h4
      split at h4
      · cases h4; rename_i hh; exact ⟨(hx t (by simp)).2, fun v => by rw [hh]; ring⟩
      · split at h4
        · cases h4; rename_i hh; exact ⟨(hx t (by simp)).1, fun v => by rw [hh]⟩
        · cases h4
    obtain ⟨h6, h7, h8⟩ := cofactor_is x xs ts _ (fun v => w v + (0 - t.1) * v y) e (fun t ht => hx t (by simp [ht]))
      (.add h1 (.mult (a := 0) (b := 1) .value (.ident le_rfl) (by omega)))
      (fun z hz => by
        simp only [idsF, List.nil_append, List.mem_append, List.mem_singleton] at hz
        rcases hz with hz | rfl
        · exact h2 z hz
        · exact h5.1)
      (fun v => by simp only [pval, h3]) h
    refine ⟨h6, h7, fun v => ?_⟩
    rw [h8 v]
    simp only [qval, List.map_cons, List.sum_cons]
    linear_combination (- t.1) * h5.2 v

/-- The members of the list `scan` computes are factors of all terms. -/
theorem scanLast_mem {x : ZId} : ∀ (ts : List (ZMod p × ZId × ZId)) (s : Option (List ZId)) (fs : List ZId),
    scanLast ts s = some fs → x ∈ fs → (∀ gs, s = some gs → x ∈ gs) ∧ ∀ t ∈ ts, x = t.2.1 ∨ x = t.2.2
  | [], s, fs, h, hx => ⟨fun gs hg => by simp only [scanLast] at h; rw [h] at hg; cases hg; exact hx, by simp⟩
  | t :: ts, s, fs, h, hx => by
    match s with
    | none =>
      have h' : scanLast ts (some [t.2.1, t.2.2]) = some fs := by simpa only [scanLast, scanStep] using h
      obtain ⟨h1, h2⟩ := scanLast_mem ts _ fs h' hx
      refine ⟨fun _ hg => (nomatch hg), fun u hu => ?_⟩
      rcases List.mem_cons.mp hu with rfl | hu
      · simpa using h1 _ rfl
      · exact h2 u hu
    | some [] =>
      simp only [scanLast, scanStep, Option.some.injEq] at h
      subst h; cases hx
    | some (g :: gs) =>
      have h' : scanLast ts (some ((g :: gs).filter fun x => x = t.2.1 || x = t.2.2)) = some fs := by
        simpa only [scanLast, scanStep] using h
      obtain ⟨h1, h2⟩ := scanLast_mem ts _ fs h' hx
      have h3 := List.mem_filter.mp (h1 _ rfl)
      refine ⟨fun _ hg => by cases hg; exact h3.1, fun u hu => ?_⟩
      rcases List.mem_cons.mp hu with rfl | hu
      · simpa using h3.2
      · exact h2 u hu

theorem cofactor_total {x : ZId} : ∀ (ts : List (ZMod p × ZId × ZId)) (acc : FExpr (ZMod p)), (∀ t ∈ ts, x = t.2.1 ∨ x = t.2.2) →
    ∃ e, cofactor x ts acc = some e
  | [], acc, _ => ⟨acc, rfl⟩
  | t :: ts, acc, h => by
    obtain ⟨y, hy⟩ : ∃ y, otherFactor x t = some y := by
      simp only [otherFactor]
      rcases h t (by simp) with h | h
      · exact ⟨_, if_pos h⟩
      · by_cases h' : x = t.2.1
        · exact ⟨_, if_pos h'⟩
        · exact ⟨_, by rw [if_neg h', if_pos h]⟩
    obtain ⟨e, he⟩ := cofactor_total ts (.add acc (.mult (.value (0 - t.1)) (.ident y))) (fun t ht => h t (by simp [ht]))
    exact ⟨e, by simp only [cofactor, hy, Option.bind_eq_bind, Option.bind_some, he]⟩

/-- The `unreachable!` is not reached. -/
theorem quadSide_no_panic (ts : List (ZMod p × ZId × ZId)) : quadSide ts ≠ .error .panic := by
  unfold quadSide
  split
  · split
    · rename_i x hx
      simp only [commonFactor, Option.bind_eq_some_iff] at hx
      obtain ⟨fs, h1, h2⟩ := hx
      obtain ⟨e, he⟩ := cofactor_total (x := x) ts (.value 0) (scanLast_mem ts none fs h1 (List.mem_of_getLast? h2)).2
      rw [he]; simp
    · simp
  · split <;> simp

theorem quadSide_is {ts : List (ZMod p × ZId × ZId)} {xs : List ZId} {e : FExpr (ZMod p)} (hx : ∀ t ∈ ts, t.2.1 ∈ xs ∧ t.2.2 ∈ xs)
    (h : quadSide ts = .ok e) : Is e xs (fun v => - qval v ts) := by
  unfold quadSide at h
  split at h
  · split at h
    · rename_i hl x hf
      split at h
      · rename_i e' he
        cases h
        obtain ⟨h1, h2, h3⟩ := cofactor_is x xs ts (.value 0) (fun _ => 0) e' hx .value (by simp [idsF]) (fun v => by simp only [pval]) he
        have hxs : x ∈ xs := by
          simp only [commonFactor, Option.bind_eq_some_iff] at hf
          obtain ⟨fs, h4, h5⟩ := hf
          obtain ⟨t, ht⟩ := List.exists_mem_of_length_pos (show 0 < ts.length by omega)
          rcases (scanLast_mem ts none fs h4 (List.mem_of_getLast? h5)).2 t ht with h | h
          · rw [h]; exact (hx t ht).1
          · rw [h]; exact (hx t ht).2
        refine ⟨.mult h1 (.ident le_rfl) (by omega), fun y hy => ?_, fun v => ?_⟩
        · simp only [idsF, List.mem_append, List.mem_singleton] at hy
          rcases hy with hy | rfl
          · exact h2 y hy
          · exact hxs
        · simp only [pval, h3 v]; ring
      · cases h
    · cases h
  · split at h
    · rename_i hl _ c x y hg
      cases h
      have hts : ts = [(c, x, y)] := by
        match ts, hl with
        | [t], _ => simpa using hg
        | [], _ => simp at hg
        | _ :: _ :: _, hl => exact absurd (by simp) hl
      subst hts
      have := hx (c, x, y) (by simp)
      refine ⟨.mult (a := 1) (b := 1) (.mult (a := 0) (b := 1) .value (.ident le_rfl) (by omega)) (.ident le_rfl) (by omega), fun z hz => ?_,
        fun v => ?_⟩
      · simp only [idsF, List.nil_append, List.mem_append, List.mem_singleton] at hz
        rcases hz with rfl | rfl
        · exact this.1
        · exact this.2
      · simp [pval, qval]
    · rename_i hg
      cases h
      have : ts = [] := by simpa using hg
      subst this
      exact ⟨.value, by simp [idsF], fun v => by simp [pval, qval]⟩

theorem not_arranged {l r l' r' : FExpr (ZMod p)} {b : Bool} (h : arrange l r = (b, l', r')) : (l' = l ∧ r' = r) ∨ (l' = r ∧ r' = l) := by
  unfold arrange at h
  repeat' split at h
  all_goals simp only [Prod.mk.injEq] at h
  all_goals obtain ⟨-, rfl, rfl⟩ := h
  all_goals first | exact Or.inl ⟨rfl, rfl⟩ | exact Or.inr ⟨rfl, rfl⟩

theorem sum_poly {l r : FExpr (ZMod p)} (h : (FExpr.sub l r).IsPoly) : l.IsPoly ∧ r.IsPoly := by
  obtain ⟨d, h⟩ := h
  cases h with
  | sub h1 h2 => exact ⟨⟨d, h1⟩, ⟨d, h2⟩⟩

/-- What the transformation of a constraint does: it exchanges the sides, or replaces them by polynomials. -/
theorem constraint_cases {l r l' r' : FExpr (ZMod p)} (hd : AtMostQuadratic l r) (h : constraint l r = .ok (l', r')) :
    (l' = l ∧ r' = r) ∨ (l' = r ∧ r' = l) ∨
    (l.Degree 2 ∧ r.Degree 2 ∧ ∀ env : ZEnv p, Bound env (idsF l) → Bound env (idsF r) →
      ∃ a b, evalF env l' = .ok a ∧ evalF env r' = .ok b ∧
        (a - b = pval (valOf env) l - pval (valOf env) r ∨ a - b = pval (valOf env) r - pval (valOf env) l)) := by
  unfold constraint at h
  split at h
  · rename_i l₁ r₁ ha
    cases h
    rcases not_arranged ha with h | h
    · exact Or.inl h
    · exact Or.inr (Or.inl h)
  · rename_i l₁ r₁ ha
    refine Or.inr (Or.inr ?_)
    split at h
    · cases h
    · rename_i q hq
      obtain ⟨h1, h2⟩ := lqc_poly _ _ hq
      have h3 : l.Degree 2 ∧ r.Degree 2 := by
        have := sum_poly h1
        rcases not_arranged ha with ⟨rfl, rfl⟩ | ⟨rfl, rfl⟩
        · exact hd this.1 this.2
        · exact hd this.2 this.1
      refine ⟨h3.1, h3.2, fun env hl hr => ?_⟩
      have h4 : (FExpr.sub l₁ r₁).Degree 2 := by
        rcases not_arranged ha with ⟨rfl, rfl⟩ | ⟨rfl, rfl⟩
        · exact .sub h3.1 h3.2
        · exact .sub h3.2 h3.1
      have h5 : Bound env (idsF (FExpr.sub l₁ r₁)) := by
        rw [idsF, bound_append]
        rcases not_arranged ha with ⟨rfl, rfl⟩ | ⟨rfl, rfl⟩
        · exact ⟨hl, hr⟩
        · exact ⟨hr, hl⟩
      obtain ⟨q', h6, h7, -⟩ := poly_lqc (valOf env) h4 le_rfl
      rw [hq] at h6; cases h6
      simp only at h
      obtain ⟨e₂, h8, h⟩ := exc_bind_ok h
      obtain ⟨e₃, h9, h⟩ := exc_bind_ok h
      obtain ⟨e₄, h10, h⟩ := exc_bind_ok h
      cases h
      have hlin := linearSum_is q.linear (idsF (FExpr.sub l₁ r₁)) (fun t ht => h2 _ (by simp only [cvars, List.mem_append, List.mem_map]; exact Or.inl ⟨t, ht, rfl⟩))
      have hquad := quadSide_is (xs := idsF (FExpr.sub l₁ r₁)) (fun t ht => ⟨h2 _ (by simp only [cvars, List.mem_append, List.mem_flatMap]; exact Or.inr ⟨t, ht, by simp⟩),
        h2 _ (by simp only [cvars, List.mem_append, List.mem_flatMap]; exact Or.inr ⟨t, ht, by simp⟩)⟩) h8
      have hL : (FExpr.add (.value q.constant) (linearSum q.linear)).Degree 2 := .add .value hlin.1
      obtain ⟨l'', h11, h12⟩ := prop_poly hL
      obtain ⟨r'', h13, h14⟩ := prop_poly hquad.1
      rw [h11] at h9; cases h9
      rw [h13] at h10; cases h10
      refine ⟨_, _, h12 env _ ((poly_eval hL).1 fun x hx => h5 x ?_), h14 env _ ((poly_eval hquad.1).1 fun x hx => h5 x (hquad.2.1 x hx)), ?_⟩
      · simp only [idsF, List.nil_append] at hx
        exact hlin.2.1 x hx
      · have h15 : pval (valOf env) (FExpr.add (.value q.constant) (linearSum q.linear)) - pval (valOf env) e₂ = pval (valOf env) l₁ - pval (valOf env) r₁ := by
          have : pval (valOf env) (FExpr.sub l₁ r₁) = pval (valOf env) l₁ - pval (valOf env) r₁ := rfl
          rw [← this, ← h7, cval, hquad.2.2]
          simp only [pval, hlin.2.2]; ring
        rcases not_arranged ha with ⟨rfl, rfl⟩ | ⟨rfl, rfl⟩
        · exact Or.inl h15
        · exact Or.inr h15

end Atr
end Zok
