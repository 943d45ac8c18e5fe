import Verif.Lemmas.ConditionRedefinerStmt

/-
The shape of the result of the redefinition of conditions.
-/

set_option linter.unusedSectionVars false
set_option linter.unusedSimpArgs false

namespace Zok.Typed
open Abi
variable {p : ℕ} {Z : Type} [Fact p.Prime] {cid : ℕ → TId}

/-- All statements of the buffer have simple conditions. -/
def SimpleB (b : List (TStmt (ZMod p))) : Prop := ∀ s ∈ b, s.SimpleConditions

theorem SimpleB.nil : SimpleB (p := p) [] := fun _ h => by simp at h
theorem SimpleB.append {b c : List (TStmt (ZMod p))} (h1 : SimpleB b) (h2 : SimpleB c) : SimpleB (b ++ c) := fun s hs => by
  rcases List.mem_append.1 hs with hs | hs
  · exact h1 s hs
  · exact h2 s hs

theorem newCondition_simple {n : ℕ} {c : TExpr (ZMod p)} (h : c.SimpleConditions) : SimpleB (newCondition cid n c).2 ∧
    ((∃ b, (newCondition cid n c).1 = .bval b) ∨ ∃ x t, (newCondition cid n c).1 = .ident x t) := by
  have hnew : newCondition cid n c = (.ident (cid n) .bool, [.definition (.ident (cid n) .bool) c]) → SimpleB (newCondition cid n c).2 ∧
      ((∃ b, (newCondition cid n c).1 = .bval b) ∨ ∃ x t, (newCondition cid n c).1 = .ident x t) := by
    intro he
    rw [he]
    refine ⟨fun s hs => ?_, .inr ⟨_, _, rfl⟩⟩
    rw [List.mem_singleton.1 hs]
    exact ⟨h, trivial⟩
  cases c <;> first | exact hnew rfl | exact ⟨.nil, .inl ⟨_, rfl⟩⟩ | exact ⟨.nil, .inr ⟨_, _, rfl⟩⟩

mutual
theorem redefE_simple : ∀ (e : TExpr (ZMod p)) (n : ℕ), SimpleB (redefE cid n e).2 ∧ (redefE cid n e).1.SimpleConditions
  | .fval _, _ => ⟨.nil, trivial⟩
  | .bval _, _ => ⟨.nil, trivial⟩
  | .uval _ _, _ => ⟨.nil, trivial⟩
  | .ident _ _, _ => ⟨.nil, trivial⟩
  | .removed _, _ => ⟨.nil, trivial⟩
  | .fbin op l r, n => ⟨(redefE_simple l n).1.append (redefE_simple r _).1, (redefE_simple l n).2, (redefE_simple r _).2⟩
  | .fubin op l r, n => ⟨(redefE_simple l n).1.append (redefE_simple r _).1, (redefE_simple l n).2, (redefE_simple r _).2⟩
  | .ubin w op l r, n => ⟨(redefE_simple l n).1.append (redefE_simple r _).1, (redefE_simple l n).2, (redefE_simple r _).2⟩
  | .bbin op l r, n => ⟨(redefE_simple l n).1.append (redefE_simple r _).1, (redefE_simple l n).2, (redefE_simple r _).2⟩
  | .fcmp op l r, n => ⟨(redefE_simple l n).1.append (redefE_simple r _).1, (redefE_simple l n).2, (redefE_simple r _).2⟩
  | .ucmp op l r, n => ⟨(redefE_simple l n).1.append (redefE_simple r _).1, (redefE_simple l n).2, (redefE_simple r _).2⟩
  | .eq l r, n => ⟨(redefE_simple l n).1.append (redefE_simple r _).1, (redefE_simple l n).2, (redefE_simple r _).2⟩
  | .select t l r, n => ⟨(redefE_simple l n).1.append (redefE_simple r _).1, (redefE_simple l n).2, (redefE_simple r _).2⟩
  | .repeat_ t k l r, n => ⟨(redefE_simple l n).1.append (redefE_simple r _).1, (redefE_simple l n).2, (redefE_simple r _).2⟩
  | .slice t k a lo hi, n => ⟨((redefE_simple a n).1.append (redefE_simple lo _).1).append (redefE_simple hi _).1, (redefE_simple a n).2, (redefE_simple lo _).2,
      (redefE_simple hi _).2⟩
  | .fneg e, n => ⟨(redefE_simple e n).1, (redefE_simple e n).2⟩
  | .fpos e, n => ⟨(redefE_simple e n).1, (redefE_simple e n).2⟩
  | .unot w e, n => ⟨(redefE_simple e n).1, (redefE_simple e n).2⟩
  | .uneg w e, n => ⟨(redefE_simple e n).1, (redefE_simple e n).2⟩
  | .upos w e, n => ⟨(redefE_simple e n).1, (redefE_simple e n).2⟩
  | .bnot e, n => ⟨(redefE_simple e n).1, (redefE_simple e n).2⟩
  | .member t e m, n => ⟨(redefE_simple e n).1, (redefE_simple e n).2⟩
  | .element t e m, n => ⟨(redefE_simple e n).1, (redefE_simple e n).2⟩
  | .array t k es, n => ⟨(redefS_simple es n).1, (redefS_simple es n).2⟩
  | .struct ms es, n => ⟨(redefL_simple es n).1, (redefL_simple es n).2⟩
  | .tuple ts es, n => ⟨(redefL_simple es n).1, (redefL_simple es n).2⟩
  | .cond t c a b, n => by
    obtain ⟨k1, k2⟩ := redefE_simple c n
    obtain ⟨k3, k4⟩ := newCondition_simple (cid := cid) (n := n + (redefE cid n c).2.length) k2
    exact ⟨((k1.append k3).append (redefE_simple a _).1).append (redefE_simple b _).1, k4, (redefE_simple a _).2, (redefE_simple b _).2⟩
theorem redefL_simple : ∀ (es : List (TExpr (ZMod p))) (n : ℕ), SimpleB (redefL cid n es).2 ∧ SimpleConditionsL (redefL cid n es).1
  | [], _ => ⟨.nil, trivial⟩
  | e :: es, n => ⟨(redefE_simple e n).1.append (redefL_simple es _).1, (redefE_simple e n).2, (redefL_simple es _).2⟩
theorem redefS_simple : ∀ (es : List (TSpread (ZMod p))) (n : ℕ), SimpleB (redefS cid n es).2 ∧ SimpleConditionsS (redefS cid n es).1
  | [], _ => ⟨.nil, trivial⟩
  | .expr e :: es, n => ⟨(redefE_simple e n).1.append (redefS_simple es _).1, (redefE_simple e n).2, (redefS_simple es _).2⟩
  | .spread e :: es, n => ⟨(redefE_simple e n).1.append (redefS_simple es _).1, (redefE_simple e n).2, (redefS_simple es _).2⟩
end

theorem simpleL_append {as bs : List (TExpr (ZMod p))} (h1 : SimpleConditionsL as) (h2 : SimpleConditionsL bs) : SimpleConditionsL (as ++ bs) := by
  induction as with
  | nil => exact h2
  | cons a as ih => exact ⟨h1.1, ih h1.2⟩

theorem redefA_simple : ∀ (a : TAssignee (ZMod p)) (n : ℕ), SimpleB (redefA cid n a).2 ∧ SimpleConditionsL (redefA cid n a).1.indices
  | .ident _ _, _ => ⟨.nil, trivial⟩
  | .select a i, n => ⟨(redefA_simple a n).1.append (redefE_simple i _).1, simpleL_append (redefA_simple a n).2 ⟨(redefE_simple i _).2, trivial⟩⟩
  | .member a _, n => redefA_simple a n
  | .element a _, n => redefA_simple a n

theorem redefStmt_simple : ∀ (s : TStmt (ZMod p)) (n : ℕ), SimpleB (redefStmt cid n s).1 ∧ (redefStmt cid n s).2.SimpleConditions
  | .ret e, n => redefE_simple e n
  | .assertion e _, n => redefE_simple e n
  | .log es, n => redefL_simple es n
  | .definition a e, n => ⟨(redefE_simple e n).1.append (redefA_simple a _).1, (redefE_simple e n).2, (redefA_simple a _).2⟩
  | .embed a f g args, n => ⟨(redefL_simple args n).1.append (redefA_simple a _).1, (redefL_simple args n).2, (redefA_simple a _).2⟩

theorem redefStmts_simple : ∀ (ss : List (TStmt (ZMod p))) (n : ℕ), ∀ s ∈ redefStmts cid n ss, s.SimpleConditions
  | [], _ => by simp [redefStmts]
  | s :: ss, n => by
    intro s' hs
    simp only [redefStmts, List.mem_append, List.mem_cons] at hs
    rcases hs with hs | rfl | hs
    · exact (redefStmt_simple s n).1 s' hs
    · exact (redefStmt_simple s n).2
    · exact redefStmts_simple ss _ s' hs

/-! ### The new variables -/

theorem Buffer.assigns {n : ℕ} : ∀ {b : List (TStmt (ZMod p))}, Buffer cid n b → b.flatMap TStmt.assigns = (List.range' n b.length).map cid := by
  intro b
  induction b generalizing n with
  | nil => intro _; rfl
  | cons s b ih =>
    intro h
    obtain ⟨c, h1, _⟩ := h 0 (by simp)
    have h2 : Buffer cid (n + 1) b := fun k hk => by
      obtain ⟨c, h3⟩ := h (k + 1) (by simpa using hk)
      rw [show n + 1 + k = n + (k + 1) by omega]
      exact ⟨c, by simpa using h3⟩
    simp only [List.getElem_cons_zero, Nat.add_zero] at h1
    rw [List.flatMap_cons, ih h2, h1]
    simp [TStmt.assigns, TAssignee.root, List.range'_succ]

open Classical in
/-- The new variables are assigned in the order of their indices. -/
theorem redefStmts_assigns {t : CType} : ∀ {ss : List (TStmt (ZMod p))} {n : ℕ}, (∀ s ∈ ss, s.Wt t) → (∀ s ∈ ss, NoCid cid s.vars) →
    ∃ m, ((redefStmts cid n ss).flatMap TStmt.assigns).filter (fun x => decide (∃ k, x = cid k)) = (List.range' n m).map cid
  | [], n, _, _ => ⟨0, rfl⟩
  | s :: ss, n, hw, hn => by
    obtain ⟨m, ih⟩ := redefStmts_assigns (ss := ss) (n := n + (redefStmt cid n s).1.length) (fun s hs => hw s (by simp [hs])) fun s hs => hn s (by simp [hs])
    refine ⟨(redefStmt cid n s).1.length + m, ?_⟩
    have h1 : (TStmt.assigns (redefStmt cid n s).2).filter (fun x => decide (∃ k, x = cid k)) = [] := by
      rw [redefStmt_assigns, List.filter_eq_nil_iff]
      intro x hx
      simp only [decide_eq_true_eq, not_exists]
      have := hn s (by simp) x
      cases s <;> simp only [TStmt.assigns, List.mem_singleton, List.not_mem_nil] at hx
      · exact this (by simp [TStmt.vars, TAssignee.vars, hx])
      · exact this (by simp [TStmt.vars, TAssignee.vars, hx])
    have h2 : ((redefStmt cid n s).1.flatMap TStmt.assigns).filter (fun x => decide (∃ k, x = cid k)) = (List.range' n (redefStmt cid n s).1.length).map cid := by
      rw [(redefStmt_wt s n (hw s (by simp))).1.assigns, List.filter_eq_self]
      intro x hx
      obtain ⟨k, _, rfl⟩ := List.mem_map.1 hx
      simp
    simp only [redefStmts, List.flatMap_append, List.flatMap_cons, List.filter_append, h1, h2, ih, List.nil_append, ← List.map_append]
    congr 1
    exact List.range'_append_1

end Zok.Typed
