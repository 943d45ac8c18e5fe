import Verif.Lemmas.BooleanArray

/-
The comparison of arrays of booleans: types, variables, statements.
-/

set_option linter.unusedSectionVars false
set_option linter.unusedSimpArgs false

namespace Zok.Typed
open Abi
variable {p : ℕ} [Fact p.Prime] {env : TEnv p} {Z : Type} {O : Oracle p Z}

mutual
theorem packE_wt : ∀ e : TExpr (ZMod p), e.Wt → (packE e).Wt
  | .fval _, h => h
  | .bval _, h => h
  | .uval _ _, h => h
  | .ident _ _, h => h
  | .removed _, h => h
  | .fbin op l r, h => ⟨by rw [packE_ty]; exact h.1, by rw [packE_ty]; exact h.2.1, packE_wt l h.2.2.1, packE_wt r h.2.2.2⟩
  | .fubin op l r, h => ⟨by rw [packE_ty]; exact h.1, by rw [packE_ty]; exact h.2.1, packE_wt l h.2.2.1, packE_wt r h.2.2.2⟩
  | .ubin w op l r, h => ⟨by rw [packE_ty]; exact h.1, by rw [packE_ty]; exact h.2.1, packE_wt l h.2.2.1, packE_wt r h.2.2.2⟩
  | .bbin op l r, h => ⟨by rw [packE_ty]; exact h.1, by rw [packE_ty]; exact h.2.1, packE_wt l h.2.2.1, packE_wt r h.2.2.2⟩
  | .fcmp op l r, h => ⟨by rw [packE_ty]; exact h.1, by rw [packE_ty]; exact h.2.1, packE_wt l h.2.2.1, packE_wt r h.2.2.2⟩
  | .ucmp op l r, h => by
    obtain ⟨⟨w, h1, h2⟩, h3, h4⟩ := h
    exact ⟨⟨w, by rw [packE_ty]; exact h1, by rw [packE_ty]; exact h2⟩, packE_wt l h3, packE_wt r h4⟩
  | .eq l r, h => by
    obtain ⟨h1, h2, h3, h4⟩ := h
    simp only [packE]
    by_cases hl : ∃ n, l.ty = .array n .bool
    · obtain ⟨n, hn⟩ := hl
      rw [compareE_array hn]
      have hs : n < 2 ^ 32 := by
        have := h2.1.2
        rw [hn] at this
        exact this.1
      refine ⟨?_, ?_, packArray_wt h3 hn hs, packArray_wt h4 (by rw [← h1]; exact hn) hs⟩
      · rw [packArray_ty, packArray_ty]
        congr 1
        exact chunks_length _ _ _ _ (by simp)
      · rw [packArray_ty]
        have := chunks_count (Fld.requiredBits p - 1) n ((List.range n).map fun i => TExpr.select .bool l (.uval .b32 i))
        refine ⟨⟨?_, ?_⟩, ?_⟩
        · simp [CType.Distinct]
        · simp only [CType.Small, and_true]; omega
        · simp [primCount]
    · rw [compareE_other fun n hn => hl ⟨n, hn⟩]
      exact ⟨by rw [packE_ty, packE_ty]; exact h1, by rw [packE_ty]; exact h2, packE_wt l h3, packE_wt r h4⟩
  | .select t l r, h => by
    obtain ⟨⟨k, h1⟩, h2, h3, h4⟩ := h
    exact ⟨⟨k, by rw [packE_ty]; exact h1⟩, by rw [packE_ty]; exact h2, packE_wt l h3, packE_wt r h4⟩
  | .repeat_ t k l r, h => by
    obtain ⟨⟨h0, h1⟩, rfl, h3⟩ := h
    exact ⟨⟨h0, by rw [packE_ty]; exact h1⟩, rfl, packE_wt l h3⟩
  | .slice t k a lo hi, h => by
    obtain ⟨⟨m, l, r, h1, rfl, rfl, h2, h3, h4⟩, h5⟩ := h
    exact ⟨⟨m, l, r, by rw [packE_ty]; exact h1, rfl, rfl, h2, h3, h4⟩, packE_wt a h5⟩
  | .fneg e, h => ⟨by rw [packE_ty]; exact h.1, packE_wt e h.2⟩
  | .fpos e, h => ⟨by rw [packE_ty]; exact h.1, packE_wt e h.2⟩
  | .unot w e, h => ⟨by rw [packE_ty]; exact h.1, packE_wt e h.2⟩
  | .uneg w e, h => ⟨by rw [packE_ty]; exact h.1, packE_wt e h.2⟩
  | .upos w e, h => ⟨by rw [packE_ty]; exact h.1, packE_wt e h.2⟩
  | .bnot e, h => ⟨by rw [packE_ty]; exact h.1, packE_wt e h.2⟩
  | .member t e m, h => ⟨by rw [packE_ty]; exact h.1, packE_wt e h.2⟩
  | .element t e m, h => ⟨by rw [packE_ty]; exact h.1, packE_wt e h.2⟩
  | .array t k es, h => ⟨h.1, (packS_wt t es k h.2.2 h.2.1).2, (packS_wt t es k h.2.2 h.2.1).1⟩
  | .struct ms es, h => ⟨h.1, by rw [(packL_wt es h.2.2).2]; exact h.2.1, (packL_wt es h.2.2).1⟩
  | .tuple ts es, h => ⟨by rw [(packL_wt es h.2).2]; exact h.1, (packL_wt es h.2).1⟩
  | .cond t c a b, h => by
    obtain ⟨h1, h2, h3, h4, h5, h6⟩ := h
    exact ⟨by rw [packE_ty]; exact h1, by rw [packE_ty]; exact h2, by rw [packE_ty]; exact h3, packE_wt c h4, packE_wt a h5, packE_wt b h6⟩
theorem packL_wt : ∀ es : List (TExpr (ZMod p)), WtL es → WtL (packL es) ∧ (packL es).map TExpr.ty = es.map TExpr.ty
  | [], _ => ⟨trivial, rfl⟩
  | e :: es, h => ⟨⟨packE_wt e h.1, (packL_wt es h.2).1⟩, by simp only [packL, List.map_cons, packE_ty, (packL_wt es h.2).2]⟩
theorem packS_wt : ∀ (t : CType) (es : List (TSpread (ZMod p))) (k : ℕ), WtS t es → spreadCount t es k → WtS t (packS es) ∧ spreadCount t (packS es) k
  | _, [], _, _, h => ⟨trivial, h⟩
  | t, .expr e :: es, k, h, hc => by
    obtain ⟨k', rfl, hc⟩ := hc
    obtain ⟨h2, h3⟩ := packS_wt t es _ h.2 hc
    exact ⟨⟨⟨by rw [packE_ty]; exact h.1.1, packE_wt e h.1.2⟩, h2⟩, k', rfl, h3⟩
  | t, .spread e :: es, k, h, hc => by
    obtain ⟨m, k', h0, rfl, hc⟩ := hc
    obtain ⟨h2, h3⟩ := packS_wt t es _ h.2 hc
    exact ⟨⟨packE_wt e h.1, h2⟩, m, k', by rw [packE_ty]; exact h0, rfl, h3⟩
end

theorem varsS_exprs {es : List (TExpr (ZMod p))} {x : TId} (h : x ∈ varsS (es.map TSpread.expr)) : ∃ e ∈ es, x ∈ e.vars := by
  induction es with
  | nil => simp [varsS] at h
  | cons e es ih =>
    simp only [List.map_cons, varsS, List.mem_append] at h
    rcases h with h | h
    · exact ⟨e, by simp, h⟩
    · obtain ⟨e', h1, h2⟩ := ih h
      exact ⟨e', by simp [h1], h2⟩

theorem packArray_vars {e : TExpr (ZMod p)} {n : ℕ} : ∀ x ∈ (packArray e n).vars, x ∈ e.vars := by
  intro x hx
  simp only [packArray, TExpr.vars] at hx
  have : (fun c : List (TExpr (ZMod p)) => TSpread.expr (packChunk c)) = TSpread.expr ∘ packChunk := rfl
  rw [this, ← List.map_map] at hx
  obtain ⟨c', h0, h2⟩ := varsS_exprs hx
  obtain ⟨c, h1, rfl⟩ := List.mem_map.1 h0
  revert h2
  refine packChunk_ind (P := fun c => x ∈ c.vars → x ∈ e.vars) (by simp [TExpr.vars]) (fun a b ha hb h => ?_) fun y hy j _ h => ?_
  · simp only [TExpr.vars, List.mem_append] at h
    exact h.elim ha hb
  · obtain ⟨i, _, rfl⟩ := List.mem_map.1 ((chunks_mem _ _ _ _ h1).2 y hy)
    simpa [TExpr.vars] using h

mutual
theorem packE_vars : ∀ e : TExpr (ZMod p), ∀ x ∈ (packE e).vars, x ∈ e.vars
  | .fval _, _, h => h
  | .bval _, _, h => h
  | .uval _ _, _, h => h
  | .ident _ _, _, h => h
  | .removed _, _, h => h
  | .fbin _ l r, x, h | .fubin _ l r, x, h | .ubin _ _ l r, x, h | .bbin _ l r, x, h | .fcmp _ l r, x, h | .ucmp _ l r, x, h | .select _ l r, x, h
  | .repeat_ _ _ l r, x, h => by
    simp only [packE, TExpr.vars, List.mem_append] at h ⊢
    exact h.imp (packE_vars l x) (packE_vars r x)
  | .eq l r, x, h => by
    simp only [packE] at h
    by_cases hl : ∃ n, l.ty = .array n .bool
    · obtain ⟨n, hn⟩ := hl
      rw [compareE_array hn] at h
      simp only [TExpr.vars, List.mem_append] at h ⊢
      exact h.imp (packArray_vars x) (packArray_vars x)
    · rw [compareE_other fun n hn => hl ⟨n, hn⟩] at h
      simp only [TExpr.vars, List.mem_append] at h ⊢
      exact h.imp (packE_vars l x) (packE_vars r x)
  | .fneg e, x, h | .fpos e, x, h | .unot _ e, x, h | .uneg _ e, x, h | .upos _ e, x, h | .bnot e, x, h | .member _ e _, x, h | .element _ e _, x, h =>
    packE_vars e x h
  | .array _ _ es, x, h => packS_vars es x h
  | .struct _ es, x, h => packL_vars es x h
  | .tuple _ es, x, h => packL_vars es x h
  | .cond _ c a b, x, h => by
    simp only [packE, TExpr.vars, List.mem_append] at h ⊢
    exact h.imp (Or.imp (packE_vars c x) (packE_vars a x)) (packE_vars b x)
  | .slice _ _ c a b, x, h => by
    simp only [packE, TExpr.vars, List.mem_append] at h ⊢
    exact h.imp (Or.imp (packE_vars c x) (packE_vars a x)) (packE_vars b x)
theorem packL_vars : ∀ es : List (TExpr (ZMod p)), ∀ x ∈ varsL (packL es), x ∈ varsL es
  | [], _, h => h
  | e :: es, x, h => by
    simp only [packL, varsL, List.mem_append] at h ⊢
    exact h.imp (packE_vars e x) (packL_vars es x)
theorem packS_vars : ∀ es : List (TSpread (ZMod p)), ∀ x ∈ varsS (packS es), x ∈ varsS es
  | [], _, h => h
  | .expr e :: es, x, h => by
    simp only [packS, varsS, List.mem_append] at h ⊢
    exact h.imp (packE_vars e x) (packS_vars es x)
  | .spread e :: es, x, h => by
    simp only [packS, varsS, List.mem_append] at h ⊢
    exact h.imp (packE_vars e x) (packS_vars es x)
end

/-! ### Statements -/

theorem packA_root : ∀ a : TAssignee (ZMod p), (packA a).root = a.root
  | .ident _ _ => rfl
  | .select a _ => packA_root a
  | .member a _ => packA_root a
  | .element a _ => packA_root a

theorem packA_ty : ∀ a : TAssignee (ZMod p), (packA a).ty = a.ty
  | .ident _ _ => rfl
  | .select a _ => by simp only [packA, TAssignee.ty, packA_ty a]
  | .member a _ => by simp only [packA, TAssignee.ty, packA_ty a]
  | .element a _ => by simp only [packA, TAssignee.ty, packA_ty a]

theorem packA_wt : ∀ a : TAssignee (ZMod p), a.Wt → (packA a).Wt
  | .ident _ _, h => h
  | .select a i, h => by
    obtain ⟨⟨n, t, h1⟩, h2, h3, h4⟩ := h
    exact ⟨⟨n, t, by rw [packA_ty]; exact h1⟩, by rw [packE_ty]; exact h2, packE_wt i h3, packA_wt a h4⟩
  | .member a m, h => by
    obtain ⟨⟨n, t, h1, h2⟩, h4⟩ := h
    exact ⟨⟨n, t, by rw [packA_ty]; exact h1, h2⟩, packA_wt a h4⟩
  | .element a m, h => by
    obtain ⟨⟨n, t, h1, h2⟩, h4⟩ := h
    exact ⟨⟨n, t, by rw [packA_ty]; exact h1, h2⟩, packA_wt a h4⟩

theorem packA_vars : ∀ a : TAssignee (ZMod p), ∀ x ∈ varsL (packA a).indices, x ∈ varsL a.indices
  | .ident _ _, _, h => h
  | .select a i, x, h => by
    have key : ∀ (l : List (TExpr (ZMod p))) (i : TExpr (ZMod p)), x ∈ varsL (l ++ [i]) ↔ x ∈ varsL l ∨ x ∈ i.vars := by
      intro l i
      induction l with
      | nil => simp [varsL]
      | cons e l ih => simp only [List.cons_append, varsL, List.mem_append, ih]; tauto
    simp only [packA, TAssignee.indices, key] at h ⊢
    exact h.imp (packA_vars a x) (packE_vars i x)
  | .member a _, x, h => packA_vars a x h
  | .element a _, x, h => packA_vars a x h

theorem packA_eval : ∀ {a : TAssignee (ZMod p)}, a.Wt → (∀ u, getA env a = .ok u → getA env (packA a) = .ok u) ∧
    ∀ w u, setA env a w = .ok u → setA env (packA a) w = .ok u
  | .ident _ _, _ => ⟨fun _ h => h, fun _ _ h => h⟩
  | .select a i, h => by
    obtain ⟨h1, h2⟩ := packA_eval (a := a) h.2.2.2
    refine ⟨fun u hu => ?_, fun w u hu => ?_⟩
    · simp only [getA] at hu
      obtain ⟨vs, g1, hu⟩ := bind_ok hu
      obtain ⟨x, g1, g2⟩ := bind_ok g1
      obtain ⟨k, g3, hu⟩ := bind_ok hu
      obtain ⟨y, g3, g4⟩ := bind_ok g3
      simp only [packA, getA, h1 _ g1, packE_eval i y h.2.2.1 g3, Except.bind, bind, g2, g4]
      exact hu
    · simp only [setA] at hu
      obtain ⟨vs, g1, hu⟩ := bind_ok hu
      obtain ⟨x, g1, g2⟩ := bind_ok g1
      obtain ⟨k, g3, hu⟩ := bind_ok hu
      obtain ⟨y, g3, g4⟩ := bind_ok g3
      simp only [packA, setA, h1 _ g1, packE_eval i y h.2.2.1 g3, Except.bind, bind, g2, g4]
      split at hu
      · rename_i hk
        rw [if_pos hk]
        exact h2 _ _ hu
      · cases hu
  | .member a m, h => by
    obtain ⟨h1, h2⟩ := packA_eval (a := a) h.2
    refine ⟨fun u hu => ?_, fun w u hu => ?_⟩
    · simp only [getA] at hu
      obtain ⟨vs, g1, hu⟩ := bind_ok hu
      simp only [packA, getA, h1 _ g1, Except.bind, bind]
      exact hu
    · simp only [setA] at hu
      obtain ⟨vs, g1, hu⟩ := bind_ok hu
      simp only [packA, setA, h1 _ g1, Except.bind, bind]
      cases vs <;> simp only [reduceCtorEq] at hu ⊢
      exact h2 _ _ hu
  | .element a m, h => by
    obtain ⟨h1, h2⟩ := packA_eval (a := a) h.2
    refine ⟨fun u hu => ?_, fun w u hu => ?_⟩
    · simp only [getA] at hu
      obtain ⟨vs, g1, hu⟩ := bind_ok hu
      simp only [packA, getA, h1 _ g1, Except.bind, bind]
      exact hu
    · simp only [setA] at hu
      obtain ⟨vs, g1, hu⟩ := bind_ok hu
      simp only [packA, setA, h1 _ g1, Except.bind, bind]
      cases vs <;> simp only [reduceCtorEq] at hu ⊢
      exact h2 _ _ hu

theorem packStmt_ref {t : CType} {s : TStmt (ZMod p)} (hw : s.Wt t) : StmtRef env s (packStmt s) := by
  cases s with
  | ret e => exact fun v h => packE_eval e v hw.2 h
  | definition a e => exact ⟨fun v h => packE_eval e v hw.2.2 h, packA_root a, (packA_eval hw.2.1).2⟩
  | embed a f g args => exact ⟨rfl, rfl, packA_ty a, fun v h => packL_eval args v hw.2.2 h, packA_root a, (packA_eval hw.2.1).2⟩
  | assertion e err => exact fun v h => packE_eval e v hw.2 h
  | log es => exact fun v h => packL_eval es v hw h

theorem packStmt_wt {t : CType} {s : TStmt (ZMod p)} (hw : s.Wt t) : (packStmt s).Wt t := by
  cases s with
  | ret e => exact ⟨by rw [packE_ty]; exact hw.1, packE_wt e hw.2⟩
  | definition a e => exact ⟨by rw [packA_ty, packE_ty]; exact hw.1, packA_wt a hw.2.1, packE_wt e hw.2.2⟩
  | embed a f g args => exact ⟨by rw [packA_ty]; exact hw.1, packA_wt a hw.2.1, (packL_wt args hw.2.2).1⟩
  | assertion e err => exact ⟨by rw [packE_ty]; exact hw.1, packE_wt e hw.2⟩
  | log es => exact (packL_wt es hw).1

theorem packStmt_vars (s : TStmt (ZMod p)) : ∀ x ∈ (packStmt s).vars, x ∈ s.vars := by
  intro x hx
  cases s with
  | ret e => exact packE_vars e x hx
  | assertion e err => exact packE_vars e x hx
  | log es => exact packL_vars es x hx
  | definition a e =>
    simp only [packStmt, TStmt.vars, TAssignee.vars, List.mem_append, List.mem_cons, packA_root] at hx ⊢
    exact hx.imp (packE_vars e x) (Or.imp id (packA_vars a x))
  | embed a f g args =>
    simp only [packStmt, TStmt.vars, TAssignee.vars, List.mem_append, List.mem_cons, packA_root] at hx ⊢
    exact hx.imp (packL_vars args x) (Or.imp id (packA_vars a x))

theorem packStmt_assigns (s : TStmt (ZMod p)) : (packStmt s).assigns = s.assigns := by
  cases s <;> simp [packStmt, TStmt.assigns, packA_root]

theorem packComparisons_replaces {f : TFun (ZMod p)} (hw : f.Wt) : Replaces O f (packComparisons f) := by
  refine Replaces.of_steps (R := fun σ τ => τ = σ ∧ True) (fun σ τ h => by rw [h.1]) rfl (tss := f.body.map fun s => [packStmt s]) ?_ ?_ fun args => ⟨rfl, trivial⟩
  · simp only [packComparisons]
    induction f.body with
    | nil => rfl
    | cons s ss ih => simp [ih]
  · rw [List.forall₂_map_right_iff, List.forall₂_same]
    exact fun s hs => StepFor.of_ref (hw.body s hs) (fun σ _ => packStmt_ref (hw.body s hs)) fun _ _ _ _ => trivial

theorem packComparisons_wt {f : TFun (ZMod p)} (hw : f.Wt) : (packComparisons f).Wt where
  params := hw.params
  ret := hw.ret
  body := fun s hs => by
    obtain ⟨s, h1, rfl⟩ := List.mem_map.1 hs
    exact packStmt_wt (hw.body s h1)

theorem packComparisons_vars {f : TFun (ZMod p)} : ∀ x ∈ (packComparisons f).vars, x ∈ f.vars := by
  intro x hx
  simp only [TFun.vars, packComparisons, List.mem_append, List.mem_flatMap, List.mem_map] at hx ⊢
  rcases hx with hx | ⟨_, ⟨s, h1, rfl⟩, hx⟩
  · exact .inl hx
  · exact .inr ⟨s, h1, packStmt_vars s x hx⟩

theorem packStmts_fresh : ∀ {ss : List (TStmt (ZMod p))} {seen : List TId}, FreshCalls seen ss → FreshCalls seen (ss.map packStmt)
  | [], _, _ => trivial
  | s :: ss, seen, h => by
    obtain ⟨h1, h2⟩ := h
    refine ⟨fun a f g args hs => ?_, by rw [packStmt_assigns]; exact packStmts_fresh h2⟩
    cases s with
    | embed a' f' g' args' =>
      simp only [packStmt, TStmt.embed.injEq] at hs
      obtain ⟨rfl, _⟩ := hs
      rw [packA_root]
      exact h1 _ _ _ _ rfl
    | _ => simp [packStmt] at hs

theorem packA_constant : ∀ {a : TAssignee (ZMod p)}, a.ConstantIndices → packA a = a
  | .ident _ _, _ => rfl
  | .select a i, h => by
    obtain ⟨w, k, rfl⟩ := h i (by simp [TAssignee.indices])
    simp only [packA, packE, packA_constant (a := a) fun j hj => h j (by simp [TAssignee.indices, hj])]
  | .member a _, h => by simp only [packA, packA_constant (a := a) h]
  | .element a _, h => by simp only [packA, packA_constant (a := a) h]

theorem packStmts_constantCalls {ss : List (TStmt (ZMod p))} (h : ConstantCalls ss) : ConstantCalls (ss.map packStmt) := by
  intro a f g args hs
  obtain ⟨s, h1, h2⟩ := List.mem_map.1 hs
  cases s with
  | embed a' f' g' args' =>
    simp only [packStmt, TStmt.embed.injEq] at h2
    obtain ⟨rfl, _⟩ := h2
    rw [packA_constant (h _ _ _ _ h1)]
    exact h _ _ _ _ h1
  | _ => simp [packStmt] at h2

theorem chunks_ceil {α : Type _} {n : ℕ} (hn : 0 < n) : ∀ (fuel : ℕ) (l : List α), l.length ≤ fuel → (chunks n fuel l).length = (l.length + n - 1) / n
  | 0, l, h => by
    have : l.length = 0 := by omega
    rw [this, Nat.div_eq_of_lt (by omega)]; rfl
  | fuel + 1, [], _ => by simp [chunks]; rw [Nat.div_eq_of_lt (by omega)]
  | fuel + 1, a :: l, h => by
    have h1 := chunks_ceil hn fuel ((a :: l).drop n) (by rw [List.length_drop]; simp at h ⊢; omega)
    simp only [chunks, List.length_cons, h1]
    rw [List.length_drop, List.length_cons]
    rcases Nat.lt_or_ge (l.length + 1) n with h2 | h2
    · rw [Nat.div_eq_of_lt (by omega), show l.length + 1 + n - 1 = (l.length) + n by omega, Nat.add_div_right _ hn, Nat.div_eq_of_lt (by omega)]
    · rw [show l.length + 1 + n - 1 = (l.length + 1 - n + n - 1) + n by omega, Nat.add_div_right _ hn]

end Zok.Typed
