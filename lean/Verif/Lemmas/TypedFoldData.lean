import Verif.Lemmas.TypedCanon

/-
Constant propagation on typed programs: arrays, structs and tuples whose parts have been folded.
-/

set_option linter.unusedSectionVars false
set_option linter.unusedSimpArgs false

namespace Zok.Typed
open Abi
variable {p : ℕ} [Fact p.Prime] {env : TEnv p} {v : AVal (ZMod p)}

/-- `e` has the value `v` in `env`. -/
abbrev HasVal (env : TEnv p) (e : TExpr (ZMod p)) (v : AVal (ZMod p)) : Prop := evalT env e = .ok v

theorem evalL_ev : ∀ {es : List (TExpr (ZMod p))} {vs : List (AVal (ZMod p))}, evalL env es = .ok vs → List.Forall₂ (HasVal env) es vs
  | [], vs, h => by simp only [evalL] at h; cases h; exact .nil
  | e :: es, vs, h => by
    obtain ⟨a, as, h1, h2, rfl, _⟩ := cons_ok h
    exact .cons h1 (evalL_ev h2)

theorem evalS_ev : ∀ {es : List (TExpr (ZMod p))} {vs : List (AVal (ZMod p))}, evalS env (es.map TSpread.expr) = .ok vs → List.Forall₂ (HasVal env) es vs
  | [], vs, h => by simp only [List.map_nil, evalS] at h; cases h; exact .nil
  | e :: es, vs, h => by
    obtain ⟨a, as, h1, h2, rfl, _⟩ := expr_ok h
    exact .cons h1 (evalS_ev h2)

theorem forall₂_get {α β : Type} {R : α → β → Prop} {a : List α} {b : List β} (h : List.Forall₂ R a b) {i : ℕ} {x : α} {y : β} (hx : a[i]? = some x)
    (hy : b[i]? = some y) : R x y := by
  induction h generalizing i with
  | nil => simp at hx
  | cons h1 h2 ih => cases i with
    | zero => simp at hx hy; subst hx hy; exact h1
    | succ i => exact ih (by simpa using hx) (by simpa using hy)

theorem forall₂_lookup {β γ : Type} {R : β → γ → Prop} {b : List β} {c : List γ} (h : List.Forall₂ R b c) : ∀ {a : List Str} {m : Str} {x : β} {y : γ},
    (a.zip b).lookup m = some x → (a.zip c).lookup m = some y → R x y := by
  induction h with
  | nil => intro a m x y hx; simp at hx
  | @cons x0 y0 b c h1 h2 ih =>
    intro a m x y hx hy
    cases a with
    | nil => simp at hx
    | cons k a =>
      simp only [List.zip_cons_cons, List.lookup_cons] at hx hy
      split at hx <;> rename_i hm <;> simp only [hm] at hy
      · cases hx; cases hy; exact h1
      · exact ih hx hy

theorem evalS_append {a b : List (TSpread (ZMod p))} {x y : List (AVal (ZMod p))} (h1 : evalS env a = .ok x) (h2 : evalS env b = .ok y) :
    evalS env (a ++ b) = .ok (x ++ y) := by
  induction a generalizing x with
  | nil => simp only [evalS] at h1; cases h1; exact h2
  | cons e a ih =>
    cases e with
    | expr e =>
      obtain ⟨v, vs, g1, g2, rfl, _⟩ := expr_ok h1
      simp only [List.cons_append, evalS, g1, ih g2]; rfl
    | spread e =>
      obtain ⟨v, vs, g1, g2, rfl, _⟩ := spread_ok h1
      simp only [List.cons_append, evalS, g1, ih g2, List.append_assoc]; rfl

theorem wtS_append {F : Type} {t : CType} {a b : List (TSpread F)} : WtS t (a ++ b) ↔ WtS t a ∧ WtS t b := by
  induction a with
  | nil => simp [WtS]
  | cons e a ih => cases e <;> simp [WtS, ih, and_assoc]

theorem spreadCount_append {F : Type} {t : CType} {a b : List (TSpread F)} {n m : ℕ} (h1 : spreadCount t a n) (h2 : spreadCount t b m) : spreadCount t (a ++ b) (n + m) := by
  induction a generalizing n with
  | nil => simp only [spreadCount] at h1; subst h1; simpa using h2
  | cons e a ih =>
    cases e with
    | expr e =>
      obtain ⟨k, rfl, h1⟩ := h1
      exact ⟨k + m, by omega, ih h1⟩
    | spread e =>
      obtain ⟨k, j, ht, rfl, h1⟩ := h1
      exact ⟨k, j + m, ht, by omega, ih h1⟩

theorem varsS_append {F : Type} {a b : List (TSpread F)} : varsS (a ++ b) = varsS a ++ varsS b := by
  induction a with
  | nil => simp [varsS]
  | cons e a ih => cases e <;> simp [varsS, ih, List.append_assoc]

theorem varsS_mem {F : Type} {es : List (TExpr F)} {x : TId} : x ∈ varsS (es.map TSpread.expr) ↔ ∃ e ∈ es, x ∈ e.vars := by
  induction es with
  | nil => simp [varsS]
  | cons e a ih => simp [varsS, ih]
theorem varsL_mem {F : Type} {es : List (TExpr F)} {x : TId} : x ∈ varsL es ↔ ∃ e ∈ es, x ∈ e.vars := by
  induction es with
  | nil => simp [varsL]
  | cons e a ih => simp [varsL, ih]

/-! ### Selects -/

theorem selects_ev {t : CType} {e : TExpr (ZMod p)} {n : ℕ} {vs : List (AVal (ZMod p))} (w : e.Wt) (ht : e.ty = .array n t) (h : evalT env e = .ok (.array vs)) :
    List.Forall₂ (HasVal env) ((List.range ((sizeOf? e.ty).getD 0)).map fun i => TExpr.select t e (.uval .b32 i)) vs := by
  have hl := eval_hasType env e _ w h
  rw [ht] at hl
  simp only [HasType] at hl
  rw [ht]
  simp only [sizeOf?, Option.getD_some]
  rw [List.forall₂_iff_get]
  refine ⟨by simp [hl.1], fun i h1 h2 => ?_⟩
  simp only [List.get_eq_getElem, List.getElem_map, List.getElem_range]
  simp only [HasVal, evalT, h]
  change selectVal vs i = _
  simp [selectVal, List.getElem?_eq_getElem h2]

mutual
theorem atomsA_ev {t : CType} : ∀ {e : TExpr (ZMod p)} {n : ℕ} {vs : List (AVal (ZMod p))}, e.Wt → e.ty = .array n t → evalT env e = .ok (.array vs) →
    List.Forall₂ (HasVal env) (atomsA t e) vs
  | .array t' n' es, n, vs, w, ht, h => by
    simp only [TExpr.ty, CType.array.injEq] at ht
    obtain ⟨rfl, rfl⟩ := ht
    obtain ⟨us, g1, g2, _⟩ := array_ok h
    cases g2
    exact atomsS_ev w.2.2 w.2.1 g1
  | .fval _, n, vs, w, ht, h | .bval _, n, vs, w, ht, h | .uval _ _, n, vs, w, ht, h | .fbin _ _ _, n, vs, w, ht, h | .fubin _ _ _, n, vs, w, ht, h | .fneg _, n, vs, w, ht, h
  | .fpos _, n, vs, w, ht, h | .ubin _ _ _ _, n, vs, w, ht, h | .unot _ _, n, vs, w, ht, h | .uneg _ _, n, vs, w, ht, h | .upos _ _, n, vs, w, ht, h
  | .bbin _ _ _, n, vs, w, ht, h | .bnot _, n, vs, w, ht, h | .fcmp _ _ _, n, vs, w, ht, h | .ucmp _ _ _, n, vs, w, ht, h | .eq _ _, n, vs, w, ht, h
  | .struct _ _, n, vs, w, ht, h | .tuple _ _, n, vs, w, ht, h => by simp only [TExpr.ty, reduceCtorEq] at ht
  | .removed _, n, vs, w, ht, h => w.elim
  | .ident x t', n, vs, w, ht, h => by simp only [atomsA]; exact selects_ev w ht h
  | .cond t' a b c, n, vs, w, ht, h => by simp only [atomsA]; exact selects_ev w ht h
  | .select t' a b, n, vs, w, ht, h => by simp only [atomsA]; exact selects_ev w ht h
  | .member t' a b, n, vs, w, ht, h => by simp only [atomsA]; exact selects_ev w ht h
  | .element t' a b, n, vs, w, ht, h => by simp only [atomsA]; exact selects_ev w ht h
  | .slice t' a b c d, n, vs, w, ht, h => by simp only [atomsA]; exact selects_ev w ht h
  | .repeat_ t' a b c, n, vs, w, ht, h => by simp only [atomsA]; exact selects_ev w ht h
theorem atomsS_ev {t : CType} : ∀ {es : List (TSpread (ZMod p))} {n : ℕ} {vs : List (AVal (ZMod p))}, WtS t es → spreadCount t es n → evalS env es = .ok vs →
    List.Forall₂ (HasVal env) (atomsS t es) vs
  | [], n, vs, w, hn, h => by simp only [evalS] at h; cases h; simp only [atomsS]; exact .nil
  | .expr e :: es, n, vs, w, hn, h => by
    obtain ⟨a, as, h1, h2, rfl, _⟩ := expr_ok h
    obtain ⟨k, _, hn⟩ := hn
    exact .cons h1 (atomsS_ev w.2 hn h2)
  | .spread e :: es, n, vs, w, hn, h => by
    obtain ⟨a, as, h1, h2, rfl, _⟩ := spread_ok h
    obtain ⟨m, k, ht, _, hn⟩ := hn
    exact List.rel_append (atomsA_ev w.1 ht h1) (atomsS_ev w.2 hn h2)
end

theorem selects_wt {t : CType} {e : TExpr (ZMod p)} {n : ℕ} (w : e.Wt) (ht : e.ty = .array n t) {k : ℕ} {x : TExpr (ZMod p)}
    (hx : ((List.range ((sizeOf? e.ty).getD 0)).map fun i => TExpr.select t e (.uval .b32 i))[k]? = some x) (hk : k < 2 ^ 32) :
    x.ty = t ∧ x.Wt ∧ ∀ y ∈ x.vars, y ∈ e.vars := by
  rw [ht] at hx
  simp only [sizeOf?, Option.getD_some, List.getElem?_map, Option.map_eq_some_iff] at hx
  obtain ⟨i, h1, rfl⟩ := hx
  rw [List.getElem?_range] at h1
  · cases h1
    exact ⟨rfl, ⟨⟨n, ht⟩, rfl, w, hk⟩, fun y hy => by simpa [TExpr.vars] using hy⟩
  · by_contra hc
    rw [List.getElem?_eq_none (by simpa using hc)] at h1
    cases h1

theorem selects_len {t : CType} {e : TExpr (ZMod p)} {n : ℕ} (ht : e.ty = .array n t) :
    ((List.range ((sizeOf? e.ty).getD 0)).map fun i => TExpr.select t e (.uval .b32 i)).length = n := by simp [ht, sizeOf?]

mutual
theorem atomsA_wt {t : CType} : ∀ {e : TExpr (ZMod p)} {n : ℕ}, e.Wt → e.ty = .array n t → (atomsA t e).length = n ∧
    ∀ k x, (atomsA t e)[k]? = some x → k < 2 ^ 32 → x.ty = t ∧ x.Wt ∧ ∀ y ∈ x.vars, y ∈ e.vars
  | .array t' n' es, n, w, ht => by
    simp only [TExpr.ty, CType.array.injEq] at ht
    obtain ⟨rfl, rfl⟩ := ht
    simp only [atomsA, TExpr.vars]
    exact atomsS_wt w.2.2 w.2.1
  | .fval _, n, w, ht | .bval _, n, w, ht | .uval _ _, n, w, ht | .fbin _ _ _, n, w, ht | .fubin _ _ _, n, w, ht | .fneg _, n, w, ht
  | .fpos _, n, w, ht | .ubin _ _ _ _, n, w, ht | .unot _ _, n, w, ht | .uneg _ _, n, w, ht | .upos _ _, n, w, ht
  | .bbin _ _ _, n, w, ht | .bnot _, n, w, ht | .fcmp _ _ _, n, w, ht | .ucmp _ _ _, n, w, ht | .eq _ _, n, w, ht
  | .struct _ _, n, w, ht | .tuple _ _, n, w, ht => by simp only [TExpr.ty, reduceCtorEq] at ht
  | .removed _, n, w, ht => w.elim
  | .ident x t', n, w, ht => by simp only [atomsA]; exact ⟨selects_len ht, fun k x hx hk => selects_wt w ht hx hk⟩
  | .cond t' a b c, n, w, ht => by simp only [atomsA]; exact ⟨selects_len ht, fun k x hx hk => selects_wt w ht hx hk⟩
  | .select t' a b, n, w, ht => by simp only [atomsA]; exact ⟨selects_len ht, fun k x hx hk => selects_wt w ht hx hk⟩
  | .member t' a b, n, w, ht => by simp only [atomsA]; exact ⟨selects_len ht, fun k x hx hk => selects_wt w ht hx hk⟩
  | .element t' a b, n, w, ht => by simp only [atomsA]; exact ⟨selects_len ht, fun k x hx hk => selects_wt w ht hx hk⟩
  | .slice t' a b c d, n, w, ht => by simp only [atomsA]; exact ⟨selects_len ht, fun k x hx hk => selects_wt w ht hx hk⟩
  | .repeat_ t' a b c, n, w, ht => by simp only [atomsA]; exact ⟨selects_len ht, fun k x hx hk => selects_wt w ht hx hk⟩
theorem atomsS_wt {t : CType} : ∀ {es : List (TSpread (ZMod p))} {n : ℕ}, WtS t es → spreadCount t es n → (atomsS t es).length = n ∧
    ∀ k x, (atomsS t es)[k]? = some x → k < 2 ^ 32 → x.ty = t ∧ x.Wt ∧ ∀ y ∈ x.vars, y ∈ varsS es
  | [], n, w, hn => by simp only [atomsS]; exact ⟨hn.symm, by simp⟩
  | .expr e :: es, n, w, hn => by
    obtain ⟨k, rfl, hn⟩ := hn
    obtain ⟨h1, h2⟩ := atomsS_wt w.2 hn
    simp only [atomsS, varsS]
    refine ⟨by simp [h1], fun i x hx hi => ?_⟩
    cases i with
    | zero => simp at hx; subst hx; exact ⟨w.1.1, w.1.2, fun y hy => by simp [hy]⟩
    | succ i =>
      obtain ⟨g1, g2, g3⟩ := h2 i x (by simpa using hx) (by omega)
      exact ⟨g1, g2, fun y hy => by simp [g3 y hy]⟩
  | .spread e :: es, n, w, hn => by
    obtain ⟨m, k, ht, rfl, hn⟩ := hn
    obtain ⟨h1, h2⟩ := atomsS_wt w.2 hn
    obtain ⟨h3, h4⟩ := atomsA_wt w.1 ht
    simp only [atomsS, varsS]
    refine ⟨by simp [h1, h3], fun i x hx hi => ?_⟩
    rw [List.getElem?_append] at hx
    split at hx
    · obtain ⟨g1, g2, g3⟩ := h4 i x hx hi
      exact ⟨g1, g2, fun y hy => by simp [g3 y hy]⟩
    · obtain ⟨g1, g2, g3⟩ := h2 _ x hx (by omega)
      exact ⟨g1, g2, fun y hy => by simp [g3 y hy]⟩
end

theorem arrayOf_some {F : Type} {e : TExpr F} {es : List (TSpread F)} (h : e.arrayOf = some es) : ∃ t n, e = .array t n es := by
  cases e <;> simp_all [TExpr.arrayOf]
theorem structOf_some {F : Type} {e : TExpr F} {ms : List (Str × CType)} {es : List (TExpr F)} (h : e.structOf = some (ms, es)) : e = .struct ms es := by
  cases e <;> simp_all [TExpr.structOf]
theorem tupleOf_some {F : Type} {e : TExpr F} {es : List (TExpr F)} (h : e.tupleOf = some es) : ∃ ts, e = .tuple ts es := by
  cases e <;> simp_all [TExpr.tupleOf]
theorem identOf_some {F : Type} {e : TExpr F} {x : TId} {t : CType} (h : e.identOf = some (x, t)) : e = .ident x t := by
  cases e <;> simp_all [TExpr.identOf]

/-- A select whose array and index have values. -/
theorem select_inv {t : CType} {a i : TExpr (ZMod p)} (h : evalT env (.select t a i) = .ok v) : ∃ vs k, evalT env a = .ok (.array vs) ∧ evalT env i = .ok (.uint .b32 k) ∧
    vs[k]? = some v := by
  simp only [evalT] at h
  obtain ⟨vs, h1, h⟩ := bind_ok h
  obtain ⟨k, h2, h⟩ := bind_ok h
  obtain ⟨a, h1, g1⟩ := bind_ok h1
  obtain ⟨k', h2, g2⟩ := bind_ok h2
  rw [asArray_ok g1] at h1
  rw [asUint_ok g2] at h2
  exact ⟨vs, k, h1, h2, selectVal_ok h⟩

theorem foldSelect_keeps {t : CType} {a i : TExpr (ZMod p)} {n : ℕ} (wa : a.Wt) (ha : a.ty = .array n t) (h : evalT env (.select t a i) = .ok v) :
    Keeps env v (foldSelect t a i n) := by
  unfold foldSelect
  split
  · rename_i es k he hk
    obtain ⟨t', n', rfl⟩ := arrayOf_some he
    simp only [TExpr.ty, CType.array.injEq] at ha
    obtain ⟨rfl, rfl⟩ := ha
    obtain ⟨vs, j, h1, h2, h3⟩ := select_inv h
    obtain rfl := uint_lit hk h2
    obtain ⟨us, g1, g2, _⟩ := array_ok h1
    cases g2
    have hf := atomsS_ev wa.2.2 wa.2.1 g1
    have hl := (atomsS_wt wa.2.2 wa.2.1).1
    have hj : j < (atomsS t' es).length := by
      rw [hf.length_eq]
      exact (List.getElem?_eq_some_iff.1 h3).1
    rw [if_pos (by omega), List.getElem?_eq_getElem hj]
    exact forall₂_get hf (List.getElem?_eq_getElem hj) h3
  · exact h

theorem foldSelect_typed {t : CType} {a i e : TExpr (ZMod p)} {n : ℕ} (wa : a.Wt) (wi : i.Wt) (ha : a.ty = .array n t) (hi : i.ty = .uint .b32) (h : foldSelect t a i n = .ok e) :
    e.ty = t ∧ e.Wt ∧ ∀ y ∈ e.vars, y ∈ a.vars ++ i.vars := by
  unfold foldSelect at h
  split at h
  · rename_i es k he hk
    obtain ⟨t', n', rfl⟩ := arrayOf_some he
    simp only [TExpr.ty, CType.array.injEq] at ha
    obtain ⟨rfl, rfl⟩ := ha
    obtain ⟨w', rfl⟩ := litU_some hk
    simp only [TExpr.ty, CType.uint.injEq] at hi
    subst hi
    split at h
    · split at h
      · rename_i x hx
        cases h
        obtain ⟨g1, g2, g3⟩ := (atomsS_wt wa.2.2 wa.2.1).2 k e hx wi
        exact ⟨g1, g2, fun y hy => by simp [TExpr.vars, g3 y hy]⟩
      · cases h
    · cases h
  · cases h
    exact ⟨rfl, ⟨⟨n, ha⟩, hi, wa, wi⟩, fun y hy => hy⟩

theorem canon_array {c : TExpr (ZMod p)} {t : CType} {n : ℕ} {es : List (TSpread (ZMod p))} (h : c = .array t n es) (hc : c.IsCanon) : ∃ xs : List (TExpr (ZMod p)),
    es = xs.map TSpread.expr ∧ ∀ x ∈ xs, x.IsCanon := by subst h; exact isCanonS_map hc

/-- A constant: closed, well-typed and in canonical form. -/
structure Good (c : TExpr (ZMod p)) : Prop where
  canon : c.IsCanon
  wt : c.Wt
  val : ∃ v, Denotes c v

mutual
theorem canon_vars : ∀ {c : TExpr (ZMod p)}, c.IsCanon → c.vars = []
  | .fval _, _ | .bval _, _ | .uval _ _, _ => by simp only [TExpr.vars]
  | .array _ _ es, h => by simp only [TExpr.vars]; exact canonS_vars h
  | .struct _ es, h => by simp only [TExpr.vars]; exact canonL_vars h
  | .tuple _ es, h => by simp only [TExpr.vars]; exact canonL_vars h
theorem canonL_vars : ∀ {c : List (TExpr (ZMod p))}, IsCanonL c → varsL c = []
  | [], _ => by simp only [varsL]
  | e :: es, h => by simp only [varsL, canon_vars h.1, canonL_vars h.2, List.append_nil]
theorem canonS_vars : ∀ {c : List (TSpread (ZMod p))}, IsCanonS c → varsS c = []
  | [], _ => by simp only [varsS]
  | .expr e :: es, h => by simp only [varsS, canon_vars h.1, canonS_vars h.2, List.append_nil]
end

theorem selectConst_ok {c e : TExpr (ZMod p)} {ta : CType} {k n : ℕ} {t : CType} (hc : Good c) (ht : ta = .array n t) (h : selectConst c ta k = .ok e) :
    Good e ∧ e.ty = t ∧ ∀ vs, Denotes c (.array vs) → ∃ v, vs[k]? = some v ∧ Denotes e v := by
  subst ht
  unfold selectConst at h
  split at h
  · cases h
  · rename_i hty
    simp only [ne_eq, not_not] at hty
    split at h
    · rename_i es n' he hn
      obtain ⟨t', n'', rfl⟩ := arrayOf_some he
      simp only [TExpr.ty, CType.array.injEq] at hty
      obtain ⟨rfl, rfl⟩ := hty
      obtain ⟨xs, rfl, hxs⟩ := isCanonS_map hc.canon
      split at h
      · cases h
      · split at h
        · split at h
          · rename_i x hx
            cases h
            simp only [List.getElem?_map, Option.map_eq_some_iff, TSpread.expr.injEq, exists_eq_right] at hx
            have hmem := List.mem_of_getElem? hx
            obtain ⟨g1, g2⟩ := wtS_map.1 hc.wt.2.2 e hmem
            obtain ⟨v, hv⟩ := hc.val
            obtain ⟨us, rfl, hus⟩ := denotes_elems hv
            have hlt : k < us.length := by rw [← hus.length_eq]; exact (List.getElem?_eq_some_iff.1 hx).1
            refine ⟨⟨hxs e hmem, g2, _, forall₂_get hus hx (List.getElem?_eq_getElem hlt)⟩, g1, fun vs hvs => ?_⟩
            have : vs = us := by
              have h1 := hvs fun _ => none
              rw [hv] at h1
              cases h1; rfl
            subst this
            exact ⟨_, List.getElem?_eq_getElem hlt, forall₂_get hus hx (List.getElem?_eq_getElem hlt)⟩
          · cases h
        · cases h
    · cases h

theorem selectConst_error {c : TExpr (ZMod p)} {ta : CType} {k : ℕ} {er : PErr} {vs : List (AVal (ZMod p))} (hc : c.Wt) (hd : Denotes c (.array vs)) (hk : k < vs.length)
    (h : selectConst c ta k = .error er) : ¬ er.Detected := by
  unfold selectConst at h
  split at h
  · cases h; simp [PErr.Detected]
  · rename_i hty
    simp only [ne_eq, not_not] at hty
    split at h
    · rename_i es n he hn
      obtain ⟨t', n', rfl⟩ := arrayOf_some he
      subst hty
      simp only [TExpr.ty, sizeOf?, Option.some.injEq] at hn
      subst hn
      have hl := eval_hasType (fun _ => none) _ _ hc (hd fun _ => none)
      simp only [TExpr.ty, HasType] at hl
      split at h
      · cases h; simp [PErr.Detected]
      · rw [if_pos (by omega)] at h
        split at h
        · cases h
        · cases h; simp [PErr.Detected]
    · cases h; simp [PErr.Detected]

/-! ### Members and elements -/

theorem member_inv {t : CType} {s : TExpr (ZMod p)} {m : Str} (h : evalT env (.member t s m) = .ok v) : ∃ ms, evalT env s = .ok (.struct ms) ∧ ms.lookup m = some v := by
  simp only [evalT] at h
  obtain ⟨a, h1, h⟩ := bind_ok h
  split at h
  · rename_i ms
    split at h
    · rename_i hl; cases h; exact ⟨ms, h1, hl⟩
    · cases h
  · cases h

theorem element_inv {t : CType} {s : TExpr (ZMod p)} {i : ℕ} (h : evalT env (.element t s i) = .ok v) : ∃ vs, evalT env s = .ok (.tuple vs) ∧ vs[i]? = some v := by
  simp only [evalT] at h
  obtain ⟨a, h1, h⟩ := bind_ok h
  split at h
  · rename_i ms
    split at h
    · rename_i hl; cases h; exact ⟨ms, h1, hl⟩
    · cases h
  · cases h

theorem foldMember_keeps {t : CType} {s : TExpr (ZMod p)} {m : Str} (h : evalT env (.member t s m) = .ok v) : Keeps env v (foldMember t s m) := by
  unfold foldMember
  split
  · rename_i ms es hs
    rw [structOf_some hs] at h
    obtain ⟨us, h1, h2⟩ := member_inv h
    simp only [evalT] at h1
    obtain ⟨vs, g1, g2⟩ := bind_ok h1
    cases g2
    split
    · rename_i e he
      exact forall₂_lookup (evalL_ev g1) he h2
    · simp [Keeps, PErr.Detected]
  · exact h

theorem foldElement_keeps {t : CType} {s : TExpr (ZMod p)} {i : ℕ} (h : evalT env (.element t s i) = .ok v) : Keeps env v (foldElement t s i) := by
  unfold foldElement
  split
  · rename_i es hs
    obtain ⟨ts, rfl⟩ := tupleOf_some hs
    obtain ⟨us, h1, h2⟩ := element_inv h
    simp only [evalT] at h1
    obtain ⟨vs, g1, g2⟩ := bind_ok h1
    cases g2
    split
    · rename_i e he
      exact forall₂_get (evalL_ev g1) he h2
    · simp [Keeps, PErr.Detected]
  · exact h

theorem lookup_ty : ∀ {ms : List (Str × CType)} {es : List (TExpr (ZMod p))} {m : Str} {t : CType} {e : TExpr (ZMod p)}, es.map TExpr.ty = ms.map Prod.snd →
    ms.lookup m = some t → ((ms.map Prod.fst).zip es).lookup m = some e → e.ty = t ∧ e ∈ es
  | [], es, m, t, e, h, h1, h2 => by simp at h1
  | (k, u) :: ms, [], m, t, e, h, h1, h2 => by simp at h
  | (k, u) :: ms, x :: es, m, t, e, h, h1, h2 => by
    simp only [List.map_cons, List.cons.injEq] at h
    simp only [List.map_cons, List.zip_cons_cons, List.lookup_cons] at h1 h2
    split at h1 <;> rename_i hm <;> simp only [hm] at h2
    · cases h1; cases h2; exact ⟨h.1, by simp⟩
    · obtain ⟨g1, g2⟩ := lookup_ty h.2 h1 h2
      exact ⟨g1, by simp [g2]⟩

theorem foldMember_typed {t : CType} {s e : TExpr (ZMod p)} {m : Str} {ms : List (Str × CType)} (w : s.Wt) (hs : s.ty = .struct ms) (hm : ms.lookup m = some t)
    (h : foldMember t s m = .ok e) : e.ty = t ∧ e.Wt ∧ ∀ y ∈ e.vars, y ∈ s.vars := by
  unfold foldMember at h
  split at h
  · rename_i ms' es hs'
    rw [structOf_some hs'] at w hs ⊢
    simp only [TExpr.ty, CType.struct.injEq] at hs
    subst hs
    split at h
    · rename_i x hx
      cases h
      obtain ⟨g1, g2⟩ := lookup_ty w.2.1 hm hx
      exact ⟨g1, wtL_all.1 w.2.2 _ g2, fun y hy => by simp only [TExpr.vars]; exact varsL_mem.2 ⟨_, g2, hy⟩⟩
    · cases h
  · cases h
    exact ⟨rfl, ⟨⟨ms, hs, hm⟩, w⟩, fun y hy => hy⟩

theorem foldElement_typed {t : CType} {s e : TExpr (ZMod p)} {i : ℕ} {ts : List CType} (w : s.Wt) (hs : s.ty = .tuple ts) (hm : ts[i]? = some t)
    (h : foldElement t s i = .ok e) : e.ty = t ∧ e.Wt ∧ ∀ y ∈ e.vars, y ∈ s.vars := by
  unfold foldElement at h
  split at h
  · rename_i es hs'
    obtain ⟨ts', rfl⟩ := tupleOf_some hs'
    simp only [TExpr.ty, CType.tuple.injEq] at hs
    subst hs
    split at h
    · rename_i x hx
      cases h
      have g1 : e.ty = t := by
        have := w.1
        rw [← this, List.getElem?_map, hx] at hm
        simpa using hm
      have g2 := List.mem_of_getElem? hx
      exact ⟨g1, wtL_all.1 w.2 _ g2, fun y hy => by simp only [TExpr.vars]; exact varsL_mem.2 ⟨_, g2, hy⟩⟩
    · cases h
  · cases h
    exact ⟨rfl, ⟨⟨ts, hs, hm⟩, w⟩, fun y hy => hy⟩

/-! ### Array values -/

theorem inline_spec {t : CType} : ∀ {es : List (TSpread (ZMod p))} {n : ℕ}, WtS t es → spreadCount t es n → WtS t (es.flatMap inlineSpread) ∧
    spreadCount t (es.flatMap inlineSpread) n ∧ (∀ y ∈ varsS (es.flatMap inlineSpread), y ∈ varsS es) ∧
    ∀ (env : TEnv p) vs, evalS env es = .ok vs → evalS env (es.flatMap inlineSpread) = .ok vs
  | [], n, w, hn => ⟨trivial, hn, fun y hy => hy, fun env vs h => h⟩
  | .expr e :: es, n, w, hn => by
    obtain ⟨k, rfl, hn⟩ := hn
    obtain ⟨h1, h2, h3, h4⟩ := inline_spec w.2 hn
    rw [List.flatMap_cons]
    refine ⟨wtS_append.2 ⟨⟨w.1, trivial⟩, h1⟩, ?_, fun y hy => ?_, fun env vs h => ?_⟩
    · have : spreadCount t (inlineSpread (.expr e)) 1 := ⟨0, rfl, rfl⟩
      rw [Nat.add_comm]; exact spreadCount_append this h2
    · rw [varsS_append] at hy
      simp only [inlineSpread, varsS, List.append_nil, List.mem_append] at hy ⊢
      exact hy.imp id (h3 y)
    · obtain ⟨a, as, g1, g2, rfl, _⟩ := expr_ok h
      exact evalS_append (x := [a]) (by simp only [inlineSpread, evalS, g1]; rfl) (h4 env as g2)
  | .spread e :: es, n, w, hn => by
    obtain ⟨m, k, ht, rfl, hn⟩ := hn
    obtain ⟨h1, h2, h3, h4⟩ := inline_spec w.2 hn
    rw [List.flatMap_cons]
    cases he : e.arrayOf with
    | none =>
      have hi : inlineSpread (.spread e) = [.spread e] := by simp only [inlineSpread, he]
      rw [hi]
      refine ⟨⟨w.1, h1⟩, ⟨m, k, ht, rfl, h2⟩, fun y hy => ?_, fun env vs h => ?_⟩
      · simp only [List.cons_append, List.nil_append, varsS, List.mem_append] at hy ⊢
        exact hy.imp id (h3 y)
      · obtain ⟨a, as, g1, g2, rfl, g3⟩ := spread_ok h
        exact g3 _ _ _ g1 (h4 env as g2)
    | some xs =>
      obtain ⟨t', n', rfl⟩ := arrayOf_some he
      simp only [TExpr.ty, CType.array.injEq] at ht
      obtain ⟨rfl, rfl⟩ := ht
      have hi : inlineSpread (.spread (.array t' n' xs)) = xs := by simp only [inlineSpread, he]
      rw [hi]
      refine ⟨wtS_append.2 ⟨w.1.2.2, h1⟩, spreadCount_append w.1.2.1 h2, fun y hy => ?_, fun env vs h => ?_⟩
      · rw [varsS_append] at hy
        simp only [varsS, TExpr.vars, List.mem_append] at hy ⊢
        exact hy.imp id (h3 y)
      · obtain ⟨a, as, g1, g2, rfl, g3⟩ := spread_ok h
        obtain ⟨us, k1, k2, _⟩ := array_ok g1
        cases k2
        exact evalS_append k1 (h4 env as g2)

theorem filter_spec {t : CType} : ∀ {es : List (TSpread (ZMod p))} {n : ℕ}, WtS t es → spreadCount t es n → WtS t (es.filter notEmptySpread) ∧
    spreadCount t (es.filter notEmptySpread) n ∧ (∀ y ∈ varsS (es.filter notEmptySpread), y ∈ varsS es) ∧
    ∀ (env : TEnv p) vs, evalS env es = .ok vs → evalS env (es.filter notEmptySpread) = .ok vs
  | [], n, w, hn => ⟨trivial, hn, fun y hy => hy, fun env vs h => h⟩
  | .expr e :: es, n, w, hn => by
    obtain ⟨k, rfl, hn⟩ := hn
    obtain ⟨h1, h2, h3, h4⟩ := filter_spec w.2 hn
    rw [List.filter_cons_of_pos (by simp [notEmptySpread])]
    refine ⟨⟨w.1, h1⟩, ⟨k, rfl, h2⟩, fun y hy => ?_, fun env vs h => ?_⟩
    · simp only [varsS, List.mem_append] at hy ⊢
      exact hy.imp id (h3 y)
    · obtain ⟨a, as, g1, g2, rfl, g3⟩ := expr_ok h
      exact g3 _ _ _ g1 (h4 env as g2)
  | .spread e :: es, n, w, hn => by
    obtain ⟨m, k, ht, rfl, hn⟩ := hn
    obtain ⟨h1, h2, h3, h4⟩ := filter_spec w.2 hn
    by_cases hm : m = 0
    · subst hm
      rw [List.filter_cons_of_neg (by simp [notEmptySpread, ht, sizeOf?])]
      refine ⟨h1, by simpa using h2, fun y hy => by simp [varsS, h3 y hy], fun env vs h => ?_⟩
      obtain ⟨a, as, g1, g2, rfl, g3⟩ := spread_ok h
      have := eval_hasType env e _ w.1 g1
      rw [ht] at this
      simp only [HasType, List.length_eq_zero_iff] at this
      rw [this.1]
      exact h4 env as g2
    · rw [List.filter_cons_of_pos (by
        simp only [notEmptySpread, ht, sizeOf?]
        cases m with
        | zero => exact (hm rfl).elim
        | succ m => rfl)]
      refine ⟨⟨w.1, h1⟩, ⟨m, k, ht, rfl, h2⟩, fun y hy => ?_, fun env vs h => ?_⟩
      · simp only [varsS, List.mem_append] at hy ⊢
        exact hy.imp id (h3 y)
      · obtain ⟨a, as, g1, g2, rfl, g3⟩ := spread_ok h
        exact g3 _ _ _ g1 (h4 env as g2)

theorem simplify_spec {t : CType} {es : List (TSpread (ZMod p))} {n : ℕ} (w : WtS t es) (hn : spreadCount t es n) : WtS t (simplifyS es) ∧
    spreadCount t (simplifyS es) n ∧ (∀ y ∈ varsS (simplifyS es), y ∈ varsS es) ∧ ∀ (env : TEnv p) vs, evalS env es = .ok vs → evalS env (simplifyS es) = .ok vs := by
  obtain ⟨h1, h2, h3, h4⟩ := inline_spec w hn
  obtain ⟨g1, g2, g3, g4⟩ := filter_spec h1 h2
  exact ⟨g1, g2, fun y hy => h3 y (g3 y hy), fun env vs h => g4 env vs (h4 env vs h)⟩

end Zok.Typed
