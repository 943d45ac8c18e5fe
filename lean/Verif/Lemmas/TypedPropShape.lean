import Verif.Lemmas.TypedPropStmt
import Verif.Spec.InOrder

/-
Constant propagation on typed programs: what the passes behind it rely on.
-/

set_option linter.unusedSectionVars false
set_option linter.unusedSimpArgs false

namespace Zok.Typed
open Abi
variable {p : ℕ} [Fact p.Prime] {Z : Type} {O : Oracle p Z} {C C' : Consts (ZMod p)}

theorem propA_vars (hC : GoodC C) : ∀ {a a' : TAssignee (ZMod p)}, propA C a = .ok a' → a.Wt → ∀ y ∈ varsL a'.indices, y ∈ varsL a.indices
  | .ident x t, a', h, w => by simp only [propA] at h; cases h; exact fun y hy => hy
  | .select a i, a', h, w => by
    simp only [propA] at h
    obtain ⟨b, h1, h⟩ := pbind_ok h
    obtain ⟨j, h2, h⟩ := pbind_ok h
    cases h
    have ih := propA_vars hC h1 w.2.2.2
    have tj := propT_typed hC i j h2 w.2.2.1
    intro y hy
    simp only [TAssignee.indices] at hy ⊢
    rw [varsL_mem] at hy ⊢
    obtain ⟨e, he, hy⟩ := hy
    rcases List.mem_append.mp he with he | he
    · obtain ⟨e', he', hy'⟩ := varsL_mem.mp (ih y (varsL_mem.mpr ⟨e, he, hy⟩))
      exact ⟨e', by simp [he'], hy'⟩
    · simp only [List.mem_singleton] at he
      subst he
      exact ⟨i, by simp, tj.2.2 y hy⟩
  | .member a m, a', h, w => by
    simp only [propA] at h
    obtain ⟨b, h1, h⟩ := pbind_ok h
    cases h
    simp only [TAssignee.indices]
    exact propA_vars hC h1 w.2
  | .element a m, a', h, w => by
    simp only [propA] at h
    obtain ⟨b, h1, h⟩ := pbind_ok h
    cases h
    simp only [TAssignee.indices]
    exact propA_vars hC h1 w.2

theorem propA_const : ∀ {a a' : TAssignee (ZMod p)}, propA C a = .ok a' → a.ConstantIndices → a' = a
  | .ident x t, a', h, w => by simp only [propA] at h; cases h; rfl
  | .select a i, a', h, w => by
    simp only [propA] at h
    obtain ⟨b, h1, h⟩ := pbind_ok h
    obtain ⟨j, h2, h⟩ := pbind_ok h
    cases h
    rw [propA_const h1 fun i hi => w i (by simp [TAssignee.indices, hi])]
    obtain ⟨u, k, rfl⟩ := w i (by simp [TAssignee.indices])
    simp only [propT] at h2
    cases h2
    rfl
  | .member a m, a', h, w => by
    simp only [propA] at h
    obtain ⟨b, h1, h⟩ := pbind_ok h
    cases h
    rw [propA_const h1 fun i hi => w i (by simpa [TAssignee.indices] using hi)]
  | .element a m, a', h, w => by
    simp only [propA] at h
    obtain ⟨b, h1, h⟩ := pbind_ok h
    cases h
    rw [propA_const h1 fun i hi => w i (by simpa [TAssignee.indices] using hi)]

/-- What is kept of a statement. -/
structure Shape (s s' : TStmt (ZMod p)) : Prop where
  vars : ∀ x ∈ s'.vars, x ∈ s.vars
  inOrder : s.InOrder → s'.InOrder
  free : s.OracleFree → s'.OracleFree
  call : ∀ a' f g args', s' = .embed a' f g args' → ∃ a args, s = .embed a f g args ∧ a'.root = a.root ∧ (a.ConstantIndices → a'.ConstantIndices)
  assigns : ∀ x ∈ s'.assigns, x ∈ s.assigns

theorem invalidate_shape (hC : GoodC C) {a : TAssignee (ZMod p)} {s s' : TStmt (ZMod p)} {ss : List (TStmt (ZMod p))} (h : invalidate C a s' = .ok (C', ss)) (hs : Shape s s')
    (ha : a.root ∈ s.assigns) (hv : a.root ∈ s.vars) : (∀ s' ∈ ss, Shape s s') ∧ (∀ x, C' x ≠ none → C x ≠ none) ∧ (C a.root = none → ss = [s']) := by
  obtain ⟨rfl, pre, rfl, hp, hpre⟩ := invalidate_inv (O := Oracle.any p Unit) h
  refine ⟨fun t ht => ?_, fun x hx => ?_, fun hn => ?_⟩
  · rcases List.mem_append.mp ht with ht | ht
    · rcases hpre with rfl | ⟨c, k1, k2, rfl⟩
      · simp at ht
      · simp only [List.mem_singleton] at ht
        subst ht
        have hcv := canon_vars (hC _ _ k1).canon
        refine ⟨fun x hx => ?_, fun _ => .inl ?_, fun _ => trivial, fun _ _ _ _ he => (nomatch he), fun x hx => ?_⟩
        · simp only [TStmt.vars, hcv, TAssignee.vars, TAssignee.root, TAssignee.indices, varsL, List.nil_append, List.mem_singleton] at hx
          subst hx
          exact hv
        · rw [hcv]; simp
        · simp only [TStmt.assigns, TAssignee.root, List.mem_singleton] at hx
          subst hx
          exact ha
    · simp only [List.mem_singleton] at ht
      subst ht
      exact hs
  · simp only [Consts.remove] at hx
    split at hx
    · exact absurd rfl hx
    · exact hx
  · rcases hpre with rfl | ⟨c, k1, k2, rfl⟩
    · rfl
    · rw [k1] at hn; cases hn

/-- What is kept of the statements, and which variables become constants. -/
theorem propStmt_shape (hC : GoodC C) {t : CType} {s : TStmt (ZMod p)} {ss : List (TStmt (ZMod p))} (hw : s.Wt t) (hA : s.ArgsTyped) (h : propStmt C s = .ok (C', ss)) :
    (∀ s' ∈ ss, Shape s s') ∧ (∀ x, C' x ≠ none → C x ≠ none ∨ x ∈ s.assigns) ∧
    ((∀ s' ∈ ss, s'.Pure) ∨ ∃ a f g args, s = .embed a f g args ∧ (C a.root = none → ∃ s', ss = [s'])) := by
  cases s with
  | ret e =>
    simp only [propStmt] at h
    obtain ⟨e', h1, h⟩ := pbind_ok h
    cases h
    have te := propT_typed hC e e' h1 hw.2
    refine ⟨fun s hs => ?_, fun x hx => .inl hx, .inl (by simp [TStmt.Pure])⟩
    simp only [List.mem_singleton] at hs
    subst hs
    exact ⟨te.2.2, fun _ => trivial, fun _ => trivial, fun _ _ _ _ he => (nomatch he), fun x hx => hx⟩
  | assertion e err =>
    simp only [propStmt] at h
    obtain ⟨e', h1, h⟩ := pbind_ok h
    have te := propT_typed hC e e' h1 hw.2
    split at h
    · cases h
    · cases h
      exact ⟨by simp, fun x hx => .inl hx, .inl (by simp)⟩
    · cases h
      refine ⟨fun s hs => ?_, fun x hx => .inl hx, .inl (by simp [TStmt.Pure])⟩
      simp only [List.mem_singleton] at hs
      subst hs
      exact ⟨te.2.2, fun _ => trivial, fun _ => trivial, fun _ _ _ _ he => (nomatch he), fun x hx => hx⟩
  | log es =>
    simp only [propStmt] at h
    obtain ⟨e', h1, h⟩ := pbind_ok h
    cases h
    refine ⟨fun s hs => ?_, fun x hx => .inl hx, .inl (by simp [TStmt.Pure])⟩
    simp only [List.mem_singleton] at hs
    subst hs
    exact ⟨(propL_typed hC es e' h1 hw).2.2, fun _ => trivial, fun _ => trivial, fun _ _ _ _ he => (nomatch he), fun x hx => hx⟩
  | definition a e =>
    simp only [propStmt] at h
    obtain ⟨a', h1, h⟩ := pbind_ok h
    obtain ⟨e', h2, h⟩ := pbind_ok h
    obtain ⟨hty, h⟩ := propDef_inv h
    have te := propT_typed hC e e' h2 hw.2.2
    obtain ⟨wa', hta, hr, -⟩ := propA_typed hC h1 hw.2.1
    have hs : Shape (.definition a e) (.definition a' e') := by
      refine ⟨fun x hx => ?_, fun ho => ?_, fun _ => trivial, fun _ _ _ _ he => (nomatch he), fun x hx => by simpa [TStmt.assigns, hr] using hx⟩
      · simp only [TStmt.vars, TAssignee.vars, hr, List.mem_append, List.mem_cons] at hx ⊢
        rcases hx with hx | hx | hx
        · exact .inl (te.2.2 x hx)
        · exact .inr (.inl hx)
        · exact .inr (.inr (propA_vars hC h1 hw.2.1 x hx))
      · rcases ho with ho | ⟨ho, ht⟩
        · exact .inl fun hx => ho (by rw [← hr]; exact te.2.2 _ hx)
        · cases propA_const h1 ho
          exact .inr ⟨ho, ht⟩
    have m1 : a'.root ∈ (TStmt.definition a e).assigns := by simp [TStmt.assigns, hr]
    have m2 : a'.root ∈ (TStmt.definition a e).vars := by simp [TStmt.vars, TAssignee.vars, hr]
    rcases h with h | h
    · have pu := const_pure hC te.2.1 hty h
      rcases assignConst_inv hC te.2.1 hty h with ⟨c, rfl, rfl, gc, -⟩ | h
      · refine ⟨by simp, fun x hx => ?_, .inl (by simp)⟩
        simp only [Consts.insert] at hx
        split at hx
        · rename_i he; subst he; exact .inr m1
        · exact .inl hx
      · obtain ⟨k1, k2, k3⟩ := invalidate_shape hC h hs m1 m2
        exact ⟨k1, fun x hx => .inl (k2 x hx), .inl pu⟩
    · obtain ⟨k1, k2, k3⟩ := invalidate_shape hC h hs m1 m2
      exact ⟨k1, fun x hx => .inl (k2 x hx), .inl (prefix_pure (by trivial) h)⟩
  | embed a f g args =>
    simp only [propStmt] at h
    obtain ⟨a', h1, h⟩ := pbind_ok h
    obtain ⟨args', h2, h⟩ := pbind_ok h
    obtain ⟨r, h3, h⟩ := pbind_ok h
    obtain ⟨⟨t', ht1, ht2⟩, wa, wl⟩ := hw
    obtain ⟨ty', wl', hvs⟩ := propL_typed hC args args' h2 wl
    obtain ⟨wa', hty, hr, -⟩ := propA_typed hC h1 wa
    have hA' : embedArgs f g (args'.map TExpr.ty) := by rw [ty']; exact hA
    have m1 : a'.root ∈ (TStmt.embed a f g args).assigns := by simp [TStmt.assigns, hr]
    have m2 : a'.root ∈ (TStmt.embed a f g args).vars := by simp [TStmt.vars, TAssignee.vars, hr]
    cases r with
    | some e =>
      have h3 : foldEmbed f g args' = .ok (some e) := by
        simp only [foldCall] at h3
        split at h3
        · exact h3
        · cases h3
      obtain ⟨ge, gt, -⟩ := foldEmbed_some (Z := Unit) h3 wl' hA' ht1
      have hte : a'.ty = some e.ty := by rw [hty, ht2, gt]
      have pu := const_pure hC ge.wt hte h
      rcases assignConst_inv hC ge.wt hte h with ⟨c, rfl, rfl, gc, -⟩ | h
      · refine ⟨by simp, fun x hx => ?_, .inl (by simp)⟩
        simp only [Consts.insert] at hx
        split at hx
        · rename_i he; subst he; exact .inr m1
        · exact .inl hx
      · have hcv := canon_vars ge.canon
        have hs : Shape (.embed a f g args) (.definition a' e) := by
          refine ⟨fun x hx => ?_, fun _ => .inl (by rw [hcv]; simp), fun _ => trivial, fun _ _ _ _ he => (nomatch he), fun x hx => by simpa [TStmt.assigns, hr] using hx⟩
          simp only [TStmt.vars, TAssignee.vars, hr, hcv, List.nil_append, List.mem_append, List.mem_cons] at hx ⊢
          rcases hx with hx | hx
          · exact .inr (.inl hx)
          · exact .inr (.inr (propA_vars hC h1 wa x hx))
        obtain ⟨k1, k2, k3⟩ := invalidate_shape hC h hs m1 m2
        exact ⟨k1, fun x hx => .inl (k2 x hx), .inl pu⟩
    | none =>
      have hs : Shape (.embed a f g args) (.embed a' f g args') := by
        refine ⟨fun x hx => ?_, fun _ => trivial, fun h => h, ?_, fun x hx => by simpa [TStmt.assigns, hr] using hx⟩
        · simp only [TStmt.vars, TAssignee.vars, hr, List.mem_append, List.mem_cons] at hx ⊢
          rcases hx with hx | hx | hx
          · exact .inl (hvs x hx)
          · exact .inr (.inl hx)
          · exact .inr (.inr (propA_vars hC h1 wa x hx))
        · rintro _ _ _ _ ⟨⟩
          refine ⟨a, args, rfl, hr, fun hc => ?_⟩
          cases propA_const h1 hc
          exact hc
      obtain ⟨k1, k2, k3⟩ := invalidate_shape hC h hs m1 m2
      exact ⟨k1, fun x hx => .inl (k2 x hx), .inr ⟨a, f, g, args, rfl, fun hn => ⟨_, k3 (by rw [hr]; exact hn)⟩⟩⟩

theorem propStmts_shape {t : CType} : ∀ {ss ts : List (TStmt (ZMod p))} {C : Consts (ZMod p)}, GoodC C → (∀ s ∈ ss, s.Wt t ∧ s.ArgsTyped) → propStmts C ss = .ok ts →
    ∀ s' ∈ ts, ∃ s ∈ ss, Shape s s'
  | [], ts, C, hC, hw, h => by simp only [propStmts] at h; cases h; simp
  | s :: ss, ts, C, hC, hw, h => by
    simp only [propStmts] at h
    obtain ⟨⟨C', s'⟩, h1, h⟩ := pbind_ok h
    obtain ⟨ts', h2, h⟩ := pbind_ok h
    cases h
    obtain ⟨g1, g2⟩ := propStmt_typed hC (hw s (by simp)).1 (hw s (by simp)).2 h1
    have sh := (propStmt_shape hC (hw s (by simp)).1 (hw s (by simp)).2 h1).1
    intro x hx
    rcases List.mem_append.mp hx with hx | hx
    · exact ⟨s, by simp, sh x hx⟩
    · obtain ⟨s1, k1, k2⟩ := propStmts_shape g1 (fun s hs => hw s (by simp [hs])) h2 x hx
      exact ⟨s1, by simp [k1], k2⟩

theorem FreshCalls.mono {F : Type} : ∀ {ss : List (TStmt F)} {a b : List TId}, (∀ x ∈ b, x ∈ a) → FreshCalls a ss → FreshCalls b ss
  | [], a, b, hs, h => trivial
  | s :: ss, a, b, hs, h => ⟨fun x f g args he hx => h.1 x f g args he (hs _ hx), FreshCalls.mono (fun x hx => by
      simp only [List.mem_append] at hx ⊢
      exact hx.imp id (hs x)) h.2⟩

theorem freshCalls_append {F : Type} : ∀ {a b : List (TStmt F)} {seen : List TId}, FreshCalls seen a → FreshCalls (a.flatMap TStmt.assigns ++ seen) b → FreshCalls seen (a ++ b)
  | [], b, seen, _, h => by simpa using h
  | s :: a, b, seen, h1, h2 => by
    refine ⟨h1.1, freshCalls_append h1.2 (h2.mono fun x hx => ?_)⟩
    simp only [List.mem_append, List.flatMap_cons] at hx ⊢
    tauto

theorem freshCalls_pure {F : Type} : ∀ {a : List (TStmt F)} {seen : List TId}, (∀ s ∈ a, s.Pure) → FreshCalls seen a
  | [], seen, _ => trivial
  | s :: a, seen, h => ⟨fun x f g args he => by have := h s (by simp); rw [he] at this; exact this.elim, freshCalls_pure fun s hs => h s (by simp [hs])⟩

theorem propStmts_fresh {t : CType} : ∀ {ss ts : List (TStmt (ZMod p))} {C : Consts (ZMod p)} {seen seen' : List TId}, GoodC C → (∀ s ∈ ss, s.Wt t ∧ s.ArgsTyped) →
    (∀ x, C x ≠ none → x ∈ seen) → (∀ x ∈ seen', x ∈ seen) → FreshCalls seen ss → propStmts C ss = .ok ts → FreshCalls seen' ts
  | [], ts, C, seen, seen', hC, hw, hd, hs, hf, h => by simp only [propStmts] at h; cases h; trivial
  | s :: ss, ts, C, seen, seen', hC, hw, hd, hs, hf, h => by
    simp only [propStmts] at h
    obtain ⟨⟨C', s'⟩, h1, h⟩ := pbind_ok h
    obtain ⟨ts', h2, h⟩ := pbind_ok h
    cases h
    obtain ⟨g1, g2⟩ := propStmt_typed hC (hw s (by simp)).1 (hw s (by simp)).2 h1
    obtain ⟨sh, dom, pu⟩ := propStmt_shape hC (hw s (by simp)).1 (hw s (by simp)).2 h1
    refine freshCalls_append ?_ (propStmts_fresh (seen := s.assigns ++ seen) g1 (fun s hs => hw s (by simp [hs])) (fun x hx => ?_) (fun x hx => ?_) hf.2 h2)
    · rcases pu with pu | ⟨a, f, g, args, rfl, hn⟩
      · exact freshCalls_pure pu
      · have ha := hf.1 a f g args rfl
        obtain ⟨s1, rfl⟩ := hn (by by_contra hc; exact ha (hd _ hc))
        refine ⟨fun a' f' g' args' he hx => ?_, trivial⟩
        obtain ⟨b, bs, k1, k2, -⟩ := (sh s1 (by simp)).call a' f' g' args' he
        cases k1
        rw [k2] at hx
        exact ha (hs _ hx)
    · rcases dom x hx with hx | hx
      · exact List.mem_append_right _ (hd x hx)
      · exact List.mem_append_left _ hx
    · rcases List.mem_append.mp hx with hx | hx
      · obtain ⟨s1, k1, k2⟩ := List.mem_flatMap.mp hx
        exact List.mem_append_left _ ((sh s1 k1).assigns x k2)
      · exact List.mem_append_right _ (hs x hx)

end Zok.Typed
