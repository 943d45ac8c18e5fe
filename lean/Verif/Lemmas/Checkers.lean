import Verif.Model.Checkers
import Verif.Lemmas.VariableWrite
import Verif.Lemmas.TypedNode
import Verif.Spec.Checkers

/-
The two checks.
-/

set_option linter.unusedSectionVars false
set_option linter.unusedSimpArgs false

namespace Zok.Typed
open Abi
variable {F : Type}

/-- What a check demands of an expression. -/
def GoodCheck : Checker → TExpr F → Prop
  | .args, e => ShiftByLiteral e
  | .bounds, e => LiteralInBounds e

def Checker.deep : Checker → Bool
  | .args => true
  | .bounds => false

def AllGood (k : Checker) (es : List (TExpr F)) : Prop := ∀ e ∈ es, GoodCheck k e

theorem AllGood.app {k : Checker} {as bs : List (TExpr F)} : AllGood k (as ++ bs) ↔ AllGood k as ∧ AllGood k bs := by
  simp only [AllGood, List.forall_mem_append]

theorem AllGood.cons {k : Checker} {a : TExpr F} {bs : List (TExpr F)} : AllGood k (a :: bs) ↔ GoodCheck k a ∧ AllGood k bs := by
  simp only [AllGood, List.forall_mem_cons]

theorem AllGood.nil {k : Checker} : AllGood k ([] : List (TExpr F)) := by simp [AllGood]

theorem isUval_iff {e : TExpr F} : e.isUval = true ↔ ∃ w k, e = .uval w k := by
  cases e <;> simp [TExpr.isUval]

open Classical in
theorem ite_prop {α : Type} {P Q : Prop} {a b : α} (h : P ↔ Q) : (if P then a else b) = if Q then a else b := by simp [h]

/-- A node which imposes no condition. -/
theorem good_trivial {k : Checker} {e : TExpr F} (h1 : ∀ w op l r, e ≠ .ubin w op l r) (h2 : ∀ t a i, e ≠ .select t a i) : GoodCheck k e := by
  cases k
  · show ShiftByLiteral e
    unfold ShiftByLiteral
    split
    · exact absurd rfl (h1 _ _ _ _)
    · exact absurd rfl (h1 _ _ _ _)
    · trivial
  · show LiteralInBounds e
    unfold LiteralInBounds
    split
    · exact absurd rfl (h2 _ _ _)
    · trivial

local macro "node" : tactic => `(tactic| (
  simp only [checkE, TExpr.subs, AllGood.cons, AllGood.app, *]
  rw [eq_true (good_trivial (by intros; simp) (by intros; simp))]
  simp only [true_and]
  split_ifs <;> simp_all))

open Classical in
mutual
theorem checkE_spec (k : Checker) : ∀ e : TExpr F, checkE k e = if AllGood k (e.subs k.deep) then some e else none
  | .fval _ => by simp [checkE, TExpr.subs, AllGood, good_trivial]
  | .bval _ => by simp [checkE, TExpr.subs, AllGood, good_trivial]
  | .uval _ _ => by simp [checkE, TExpr.subs, AllGood, good_trivial]
  | .ident _ _ => by simp [checkE, TExpr.subs, AllGood, good_trivial]
  | .removed _ => by simp [checkE, TExpr.subs, AllGood, good_trivial]
  | .fbin op l r => by have := checkE_spec k l; have := checkE_spec k r; node
  | .fubin op l r => by have := checkE_spec k l; have := checkE_spec k r; node
  | .fneg e => by have := checkE_spec k e; node
  | .fpos e => by have := checkE_spec k e; node
  | .ubin w op l r => by
    have h1 := checkE_spec k l
    have h2 := checkE_spec k r
    simp only [checkE, TExpr.subs, AllGood.cons, AllGood.app, h1, h2]
    have h3 : GoodCheck k (.ubin w op l r) ↔ ¬ (k = .args ∧ op.isShift = true ∧ ¬ r.isUval = true) := by
      rw [isUval_iff]
      cases k
      · cases op <;> simp [GoodCheck, ShiftByLiteral, UOp.isShift]
      · simp [GoodCheck, LiteralInBounds]
    rw [h3]
    split_ifs <;> simp_all
  | .unot w e => by have := checkE_spec k e; node
  | .uneg w e => by have := checkE_spec k e; node
  | .upos w e => by have := checkE_spec k e; node
  | .bbin op l r => by have := checkE_spec k l; have := checkE_spec k r; node
  | .bnot e => by have := checkE_spec k e; node
  | .fcmp op l r => by have := checkE_spec k l; have := checkE_spec k r; node
  | .ucmp op l r => by have := checkE_spec k l; have := checkE_spec k r; node
  | .eq l r => by have := checkE_spec k l; have := checkE_spec k r; node
  | .cond t c a b => by have := checkE_spec k c; have := checkE_spec k a; have := checkE_spec k b; node
  | .select t a i => by
    cases k with
    | args =>
      have h1 := checkE_spec .args a
      have h2 := checkE_spec .args i
      have h3 : GoodCheck .args (.select t a i) := by simp [GoodCheck, ShiftByLiteral]
      have h4 : AllGood .args ((TExpr.select t a i).subs Checker.args.deep) ↔
          AllGood .args (a.subs Checker.args.deep) ∧ AllGood .args (i.subs Checker.args.deep) := by
        show AllGood .args (_ :: (a.subs true ++ i.subs true)) ↔ _
        rw [AllGood.cons, AllGood.app]
        simp only [h3, true_and]
        rfl
      simp only [checkE, h4, h1, h2]
      split_ifs <;> simp_all
    | bounds =>
      simp only [checkE, TExpr.subs, AllGood.cons, Checker.deep, Bool.false_eq_true, if_false, AllGood.nil, and_true]
      clear * -
      split
      · rename_i w n size t' h1
        have h3 : GoodCheck .bounds (.select t a (.uval w n)) ↔ ¬ size ≤ n := by
          simp [GoodCheck, LiteralInBounds, h1]
        rw [h3]
        split_ifs <;> simp_all
      · rename_i i _ _ h1
        have h3 : GoodCheck .bounds (.select t a i) := by
          simp only [GoodCheck]
          unfold LiteralInBounds
          split
          · rename_i heq
            cases heq
            intro n t' h2
            exact absurd h2 (h1 _ _ _ _ rfl)
          · trivial
        simp [h3]
  | .member t e m => by have := checkE_spec k e; node
  | .element t e i => by have := checkE_spec k e; node
  | .array t n es => by have := checkS_spec k es; node
  | .slice t n a lo hi => by have := checkE_spec k a; have := checkE_spec k lo; have := checkE_spec k hi; node
  | .repeat_ t n e c => by have := checkE_spec k e; have := checkE_spec k c; node
  | .struct ms es => by have := checkL_spec k es; node
  | .tuple ts es => by have := checkL_spec k es; node
theorem checkL_spec (k : Checker) : ∀ es : List (TExpr F), checkL k es = if AllGood k (subsL k.deep es) then some es else none
  | [] => by simp [checkL, subsL, AllGood]
  | e :: es => by
    simp only [checkL, subsL, AllGood.app, checkE_spec k e, checkL_spec k es]
    split_ifs <;> simp_all
theorem checkS_spec (k : Checker) : ∀ es : List (TSpread F), checkS k es = if AllGood k (subsS k.deep es) then some es else none
  | [] => by simp [checkS, subsS, AllGood]
  | .expr e :: es => by
    simp only [checkS, subsS, AllGood.app, checkE_spec k e, checkS_spec k es]
    split_ifs <;> simp_all
  | .spread e :: es => by
    simp only [checkS, subsS, AllGood.app, checkE_spec k e, checkS_spec k es]
    split_ifs <;> simp_all
end

theorem subsL_flatMap (deep : Bool) : ∀ es : List (TExpr F), subsL deep es = es.flatMap (TExpr.subs deep)
  | [] => rfl
  | e :: es => by rw [subsL, subsL_flatMap deep es, List.flatMap_cons]

theorem subsL_append (deep : Bool) (as bs : List (TExpr F)) : subsL deep (as ++ bs) = subsL deep as ++ subsL deep bs := by
  simp [subsL_flatMap]

open Classical in
theorem checkA_args : ∀ a : TAssignee F, checkA .args a = if AllGood .args (subsL true a.indices) then some a else none
  | .ident _ _ => by simp [checkA, TAssignee.indices, subsL, AllGood]
  | .select a i => by
    have h2 := checkE_spec .args i
    simp only [checkA, TAssignee.indices, subsL_append, AllGood.app, checkA_args a, h2]
    have h4 : AllGood .args (subsL true [i]) ↔ AllGood .args (i.subs Checker.args.deep) := by simp [subsL, Checker.deep]
    simp only [h4]
    split_ifs <;> simp_all
  | .member a m => by
    simp only [checkA, TAssignee.indices, checkA_args a]
    split_ifs <;> simp_all
  | .element a m => by
    simp only [checkA, TAssignee.indices, checkA_args a]
    split_ifs <;> simp_all

open Classical in
theorem checkA_bounds : ∀ a : TAssignee F, a.Wt →
    checkA .bounds a = if a.LiteralInBounds ∧ AllGood .bounds (subsL false a.indices) then some a else none
  | .ident _ _, _ => by simp [checkA, TAssignee.indices, subsL, AllGood, TAssignee.LiteralInBounds]
  | .select a i, hw => by
    obtain ⟨⟨n, t, hty⟩, h1, h2, h3⟩ := hw
    have h5 := checkE_spec .bounds i
    have h4 : AllGood .bounds (subsL false [i]) ↔ AllGood .bounds (i.subs Checker.bounds.deep) := by simp [subsL, Checker.deep]
    simp only [checkA, TAssignee.indices, subsL_append, AllGood.app, checkA_bounds a h3, TAssignee.LiteralInBounds, h4]
    by_cases hg : a.LiteralInBounds ∧ AllGood .bounds (subsL false a.indices)
    · rw [if_pos hg]
      simp only [Option.bind_eq_bind, Option.bind_some, hty]
      split
      · rename_i size t' w k h6
        cases h6
        have h7 : AllGood .bounds ((TExpr.uval (F := F) w k).subs Checker.bounds.deep) := by
          simp only [TExpr.subs, AllGood.cons, AllGood.nil, and_true]
          exact good_trivial (by intros; simp) (by intros; simp)
        have h8 : (∀ n' t' w' k', some (CType.array n t) = some (.array n' t') → TExpr.uval (F := F) w k = .uval w' k' → k' < n') ↔ ¬ n ≤ k := by
          rw [not_le]
          exact ⟨fun h => h _ _ _ _ rfl rfl, fun h n' t' w' k' e1 e2 => by cases e1; cases e2; exact h⟩
        rw [h8]
        split_ifs <;> simp_all
      · rename_i j _ _ _ _ h6 h7
        cases h6
        have h8 : ∀ n' t' w' k', some (CType.array n t) = some (.array n' t') → j = .uval w' k' → k' < n' := by
          intro n' t' w' k' e1 e2
          exact absurd e2 (h7 _ _)
        rw [h5]
        split_ifs <;> simp_all
      · rename_i h6 h7
        exact absurd rfl (h6 _ _)
    · rw [if_neg hg, if_neg (fun h => hg ⟨h.1.2, h.2.1⟩)]
      rfl
  | .member a m, hw => by
    simp only [checkA, TAssignee.indices, checkA_bounds a hw.2, TAssignee.LiteralInBounds]
    by_cases hg : a.LiteralInBounds ∧ AllGood .bounds (subsL false a.indices)
    · rw [if_pos hg]; exact (if_pos hg).symm
    · rw [if_neg hg]; exact (if_neg hg).symm
  | .element a m, hw => by
    simp only [checkA, TAssignee.indices, checkA_bounds a hw.2, TAssignee.LiteralInBounds]
    by_cases hg : a.LiteralInBounds ∧ AllGood .bounds (subsL false a.indices)
    · rw [if_pos hg]; exact (if_pos hg).symm
    · rw [if_neg hg]; exact (if_neg hg).symm

mutual
theorem constant_iff : ∀ e : TExpr F, e.constant = true ↔ IsConstant e
  | .fval _ => ⟨fun _ => .fval, fun _ => rfl⟩
  | .bval _ => ⟨fun _ => .bval, fun _ => rfl⟩
  | .uval _ _ => ⟨fun _ => .uval, fun _ => rfl⟩
  | .ident _ _ => ⟨fun h => by simp [TExpr.constant] at h, fun h => by cases h⟩
  | .removed _ => ⟨fun h => by simp [TExpr.constant] at h, fun h => by cases h⟩
  | .fbin _ _ _ => ⟨fun h => by simp [TExpr.constant] at h, fun h => by cases h⟩
  | .fubin _ _ _ => ⟨fun h => by simp [TExpr.constant] at h, fun h => by cases h⟩
  | .fneg _ => ⟨fun h => by simp [TExpr.constant] at h, fun h => by cases h⟩
  | .fpos _ => ⟨fun h => by simp [TExpr.constant] at h, fun h => by cases h⟩
  | .ubin _ _ _ _ => ⟨fun h => by simp [TExpr.constant] at h, fun h => by cases h⟩
  | .unot _ _ => ⟨fun h => by simp [TExpr.constant] at h, fun h => by cases h⟩
  | .uneg _ _ => ⟨fun h => by simp [TExpr.constant] at h, fun h => by cases h⟩
  | .upos _ _ => ⟨fun h => by simp [TExpr.constant] at h, fun h => by cases h⟩
  | .bbin _ _ _ => ⟨fun h => by simp [TExpr.constant] at h, fun h => by cases h⟩
  | .bnot _ => ⟨fun h => by simp [TExpr.constant] at h, fun h => by cases h⟩
  | .fcmp _ _ _ => ⟨fun h => by simp [TExpr.constant] at h, fun h => by cases h⟩
  | .ucmp _ _ _ => ⟨fun h => by simp [TExpr.constant] at h, fun h => by cases h⟩
  | .eq _ _ => ⟨fun h => by simp [TExpr.constant] at h, fun h => by cases h⟩
  | .cond _ _ _ _ => ⟨fun h => by simp [TExpr.constant] at h, fun h => by cases h⟩
  | .select _ _ _ => ⟨fun h => by simp [TExpr.constant] at h, fun h => by cases h⟩
  | .member _ _ _ => ⟨fun h => by simp [TExpr.constant] at h, fun h => by cases h⟩
  | .element _ _ _ => ⟨fun h => by simp [TExpr.constant] at h, fun h => by cases h⟩
  | .array t n es => by
    rw [TExpr.constant, constantS_iff es]
    exact ⟨.array, fun h => by cases h; assumption⟩
  | .slice t n a lo hi => by
    simp only [TExpr.constant, Bool.and_eq_true, constant_iff a, constant_iff lo, constant_iff hi]
    exact ⟨fun h => .slice h.2 h.1.1 h.1.2, fun h => by cases h with | slice h1 h2 h3 => exact ⟨⟨h2, h3⟩, h1⟩⟩
  | .repeat_ t n e c => by
    simp only [TExpr.constant, Bool.and_eq_true, constant_iff e, constant_iff c]
    exact ⟨fun h => .repeat_ h.2 h.1, fun h => by cases h with | repeat_ h1 h2 => exact ⟨h2, h1⟩⟩
  | .struct ms es => by
    rw [TExpr.constant, constantL_iff es]
    exact ⟨.struct, fun h => by cases h; assumption⟩
  | .tuple ts es => by
    rw [TExpr.constant, constantL_iff es]
    exact ⟨.tuple, fun h => by cases h; assumption⟩
theorem constantL_iff : ∀ es : List (TExpr F), constantL es = true ↔ ∀ e ∈ es, IsConstant e
  | [] => by simp [constantL]
  | e :: es => by simp only [constantL, Bool.and_eq_true, constant_iff e, constantL_iff es, List.forall_mem_cons]
theorem constantS_iff : ∀ es : List (TSpread F), constantS es = true ↔ AllConstant es
  | [] => ⟨fun _ => .nil, fun _ => rfl⟩
  | .expr e :: es => by
    simp only [constantS, Bool.and_eq_true, constant_iff e, constantS_iff es]
    exact ⟨fun h => .expr h.1 h.2, fun h => by cases h with | expr h1 h2 => exact ⟨h1, h2⟩⟩
  | .spread e :: es => by
    simp only [constantS, Bool.and_eq_true, constant_iff e, constantS_iff es]
    exact ⟨fun h => .spread h.1 h.2, fun h => by cases h with | spread h1 h2 => exact ⟨h1, h2⟩⟩
end

open Classical in
theorem checkStmt_args (s : TStmt F) :
    checkStmt .args s = if AllGood .args (subsL true (s.exprs argsCalls)) ∧ CompareConstant s then some s else none := by
  have hd : Checker.args.deep = true := rfl
  have hE := fun e : TExpr F => checkE_spec .args e
  have hL := fun es : List (TExpr F) => checkL_spec .args es
  simp only [hd] at hE hL
  cases s with
  | ret e =>
    simp only [checkStmt, TStmt.exprs, subsL, List.append_nil, CompareConstant, and_true, hE]
    split_ifs <;> simp_all
  | assertion e err =>
    simp only [checkStmt, TStmt.exprs, subsL, List.append_nil, CompareConstant, and_true, hE]
    split_ifs <;> simp_all
  | log es =>
    simp only [checkStmt, TStmt.exprs, CompareConstant, and_true, hL]
    split_ifs <;> simp_all
  | definition a e =>
    simp only [checkStmt, TStmt.exprs, subsL, AllGood.app, CompareConstant, and_true, hE, checkA_args]
    split_ifs <;> simp_all
  | embed a f g args =>
    cases f
    case bitArrayLe =>
      simp only [checkStmt, TStmt.exprs, argsCalls, if_true, Bool.false_eq_true, if_false, List.append_nil, CompareConstant, hL]
      by_cases h1 : AllGood .args (subsL true args)
      · rw [if_pos h1]
        simp only [Option.bind_eq_bind, Option.bind_some, h1, true_and]
        cases h2 : args[1]? with
        | none => simp
        | some e =>
          simp only [Option.some.injEq, exists_eq_left', constant_iff]
      · rw [if_neg h1, if_neg (fun h => h1 h.1)]
        rfl
    all_goals simp [checkStmt, TStmt.exprs, argsCalls, CompareConstant, subsL, AllGood]

open Classical in
theorem checkStmt_bounds {r : CType} (s : TStmt F) (hw : s.Wt r) :
    checkStmt .bounds s = if AllGood .bounds (subsL false (s.exprs allCalls)) ∧ s.AssigneeInBounds then some s else none := by
  have hd : Checker.bounds.deep = false := rfl
  have hE := fun e : TExpr F => checkE_spec .bounds e
  have hL := fun es : List (TExpr F) => checkL_spec .bounds es
  simp only [hd] at hE hL
  cases s with
  | ret e =>
    simp only [checkStmt, TStmt.exprs, subsL, List.append_nil, TStmt.AssigneeInBounds, and_true, hE]
    split_ifs <;> simp_all
  | assertion e err =>
    simp only [checkStmt, TStmt.exprs, subsL, List.append_nil, TStmt.AssigneeInBounds, and_true, hE]
    split_ifs <;> simp_all
  | log es =>
    simp only [checkStmt, TStmt.exprs, TStmt.AssigneeInBounds, and_true, hL]
    split_ifs <;> simp_all
  | definition a e =>
    simp only [checkStmt, TStmt.exprs, subsL, AllGood.app, TStmt.AssigneeInBounds, hE, checkA_bounds a hw.2.1]
    split_ifs <;> simp_all
  | embed a f g args =>
    simp only [checkStmt, TStmt.exprs, allCalls, if_true, subsL_append, AllGood.app, TStmt.AssigneeInBounds, hL, checkA_bounds a hw.2.1]
    split_ifs <;> simp_all

open Classical in
theorem checkStmts_spec {k : Checker} {P : TStmt F → Prop} [DecidablePred P] : ∀ ss : List (TStmt F), (∀ s ∈ ss, checkStmt k s = if P s then some s else none) →
    checkStmts k ss = if ∀ s ∈ ss, P s then some ss else none
  | [], _ => by simp [checkStmts]
  | s :: ss, h => by
    simp only [checkStmts, h s List.mem_cons_self, checkStmts_spec ss (fun s hs => h s (List.mem_cons_of_mem _ hs)), List.forall_mem_cons]
    split_ifs <;> simp_all

theorem allGood_exprs {k : Checker} {deep : Bool} {es : List (TExpr F)} : AllGood k (subsL deep es) ↔ ∀ e ∈ es, ∀ e' ∈ e.subs deep, GoodCheck k e' := by
  rw [subsL_flatMap]
  simp only [AllGood, List.mem_flatMap]
  exact ⟨fun h e he e' he' => h e' ⟨e, he, he'⟩, fun h e' ⟨e, he, he'⟩ => h e he e' he'⟩

/-! ### Selects out of bounds have no value -/

section
variable {p : ℕ} [Fact p.Prime] {env : TEnv p}

theorem select_inBounds {t : CType} {a i : TExpr (ZMod p)} {v : AVal (ZMod p)} (hw : a.Wt) (h : evalT env (.select t a i) = .ok v) :
    LiteralInBounds (.select t a i) := by
  unfold LiteralInBounds
  split
  · rename_i t' a' w k heq
    cases heq
    intro n t'' hty
    simp only [evalT] at h
    obtain ⟨vs, h1, h⟩ := Prop'.exc_bind_ok h
    obtain ⟨k', h2, hsel⟩ := Prop'.exc_bind_ok h
    obtain ⟨u, h3, h1⟩ := bind_ok h1
    have ht := eval_hasType env a u hw h3
    rw [hty] at ht
    have hk : k' = k := by
      simp only [Except.bind, asUint] at h2
      split at h2
      · cases h2; rfl
      · cases h2
    subst hk
    rw [asArray_ok h1] at ht
    simp only [HasType] at ht
    have := (List.getElem?_eq_some_iff.1 (selectVal_ok hsel)).1
    omega
  · trivial

theorem good_leaf {k : Checker} {e : TExpr F} (h1 : ∀ w op l r, e ≠ .ubin w op l r) (h2 : ∀ t a i, e ≠ .select t a i) (h3 : e.subs k.deep = [e]) :
    AllGood k (e.subs k.deep) := by
  rw [h3]
  exact AllGood.cons.2 ⟨good_trivial h1 h2, AllGood.nil⟩

theorem good_node {k : Checker} {e : TExpr F} {l : List (TExpr F)} (h1 : ∀ w op l r, e ≠ .ubin w op l r) (h2 : ∀ t a i, e ≠ .select t a i) (h3 : AllGood k l) :
    AllGood k (e :: l) := AllGood.cons.2 ⟨good_trivial h1 h2, h3⟩

local macro "nd" : tactic => `(tactic| (refine good_node (by intros; simp) (by intros; simp) ?_; try simp only [AllGood.app]))

mutual
theorem eval_good : ∀ (e : TExpr (ZMod p)) (v : AVal (ZMod p)), e.Wt → evalT env e = .ok v → AllGood .bounds (e.subs false)
  | .fval _, _, _, _ => good_leaf (by intros; simp) (by intros; simp) rfl
  | .bval _, _, _, _ => good_leaf (by intros; simp) (by intros; simp) rfl
  | .uval _ _, _, _, _ => good_leaf (by intros; simp) (by intros; simp) rfl
  | .ident _ _, _, _, _ => good_leaf (by intros; simp) (by intros; simp) rfl
  | .removed _, _, _, _ => good_leaf (by intros; simp) (by intros; simp) rfl
  | .fbin op l r, v, hw, h => by
    obtain ⟨a, b, h1, h2, _⟩ := fbin_ok h
    nd
    exact ⟨eval_good l a hw.2.2.1 h1, eval_good r b hw.2.2.2 h2⟩
  | .fubin op l r, v, hw, h => by
    obtain ⟨a, b, h1, h2, _⟩ := fubin_ok h
    nd
    exact ⟨eval_good l a hw.2.2.1 h1, eval_good r b hw.2.2.2 h2⟩
  | .fneg e, v, hw, h => by
    obtain ⟨a, h1, _⟩ := fneg_ok h
    nd
    exact eval_good e a hw.2 h1
  | .fpos e, v, hw, h => by
    obtain ⟨a, h1, _⟩ := fpos_ok h
    nd
    exact eval_good e a hw.2 h1
  | .ubin w op l r, v, hw, h => by
    obtain ⟨a, b, h1, h2, _⟩ := ubin_ok h
    refine AllGood.cons.2 ⟨by simp [GoodCheck, LiteralInBounds], AllGood.app.2 ?_⟩
    exact ⟨eval_good l a hw.2.2.1 h1, eval_good r b hw.2.2.2 h2⟩
  | .unot w e, v, hw, h => by
    obtain ⟨a, h1, _⟩ := unot_ok h
    nd
    exact eval_good e a hw.2 h1
  | .uneg w e, v, hw, h => by
    obtain ⟨a, h1, _⟩ := uneg_ok h
    nd
    exact eval_good e a hw.2 h1
  | .upos w e, v, hw, h => by
    obtain ⟨a, h1, _⟩ := upos_ok h
    nd
    exact eval_good e a hw.2 h1
  | .bbin op l r, v, hw, h => by
    obtain ⟨a, b, h1, h2, _⟩ := bbin_ok h
    nd
    exact ⟨eval_good l a hw.2.2.1 h1, eval_good r b hw.2.2.2 h2⟩
  | .bnot e, v, hw, h => by
    obtain ⟨a, h1, _⟩ := bnot_ok h
    nd
    exact eval_good e a hw.2 h1
  | .fcmp op l r, v, hw, h => by
    obtain ⟨a, b, h1, h2, _⟩ := fcmp_ok h
    nd
    exact ⟨eval_good l a hw.2.2.1 h1, eval_good r b hw.2.2.2 h2⟩
  | .ucmp op l r, v, hw, h => by
    obtain ⟨a, b, h1, h2, _⟩ := ucmp_ok h
    nd
    exact ⟨eval_good l a hw.2.1 h1, eval_good r b hw.2.2 h2⟩
  | .eq l r, v, hw, h => by
    obtain ⟨a, b, h1, h2, _⟩ := eq_ok h
    nd
    exact ⟨eval_good l a hw.2.2.1 h1, eval_good r b hw.2.2.2 h2⟩
  | .cond t c a b, v, hw, h => by
    obtain ⟨k, x, y, h1, h2, h3, _⟩ := cond_ok h
    nd
    exact ⟨⟨eval_good c _ hw.2.2.2.1 h1, eval_good a x hw.2.2.2.2.1 h2⟩, eval_good b y hw.2.2.2.2.2 h3⟩
  | .select t a i, v, hw, h => AllGood.cons.2 ⟨select_inBounds hw.2.2.1 h, AllGood.nil⟩
  | .member t e m, v, hw, h => by
    obtain ⟨a, h1, _⟩ := member_ok h
    nd
    exact eval_good e a hw.2 h1
  | .element t e m, v, hw, h => by
    obtain ⟨a, h1, _⟩ := element_ok h
    nd
    exact eval_good e a hw.2 h1
  | .array t n es, v, hw, h => by
    obtain ⟨a, h1, _⟩ := array_ok h
    nd
    exact evalS_good es a hw.2.2 h1
  | .slice t n a lo hi, v, hw, h => by
    obtain ⟨x, y, z, h1, h2, h3, _⟩ := slice_ok h
    obtain ⟨⟨k, l, h', g1, g2, g3, g4⟩, hw⟩ := hw
    subst g2; subst g3
    nd
    exact ⟨⟨eval_good a x hw h1, good_leaf (by intros; simp) (by intros; simp) rfl⟩, good_leaf (by intros; simp) (by intros; simp) rfl⟩
  | .repeat_ t n e c, v, hw, h => by
    obtain ⟨a, b, h1, h2, _⟩ := repeat__ok h
    obtain ⟨g1, g2, hw⟩ := hw
    subst g2
    nd
    exact ⟨eval_good e a hw h1, good_leaf (by intros; simp) (by intros; simp) rfl⟩
  | .struct ms es, v, hw, h => by
    obtain ⟨a, h1, _⟩ := struct_ok h
    nd
    exact evalL_good es a hw.2.2 h1
  | .tuple ts es, v, hw, h => by
    obtain ⟨a, h1, _⟩ := tuple_ok h
    nd
    exact evalL_good es a hw.2 h1
theorem evalL_good : ∀ (es : List (TExpr (ZMod p))) (vs : List (AVal (ZMod p))), WtL es → evalL env es = .ok vs → AllGood .bounds (subsL false es)
  | [], _, _, _ => AllGood.nil
  | e :: es, vs, hw, h => by
    obtain ⟨a, as, h1, h2, _⟩ := cons_ok h
    exact AllGood.app.2 ⟨eval_good e a hw.1 h1, evalL_good es as hw.2 h2⟩
theorem evalS_good {t : CType} : ∀ (es : List (TSpread (ZMod p))) (vs : List (AVal (ZMod p))), WtS t es → evalS env es = .ok vs →
    AllGood .bounds (subsS false es)
  | [], _, _, _ => AllGood.nil
  | .expr e :: es, vs, hw, h => by
    obtain ⟨a, as, h1, h2, _⟩ := expr_ok h
    exact AllGood.app.2 ⟨eval_good e a hw.1.2 h1, evalS_good es as hw.2 h2⟩
  | .spread e :: es, vs, hw, h => by
    obtain ⟨a, as, h1, h2, _⟩ := spread_ok h
    exact AllGood.app.2 ⟨eval_good e _ hw.1 h1, evalS_good es as hw.2 h2⟩
end

/-- An assignee whose part exists has its literal indices in bounds. -/
theorem getA_inBounds : ∀ {a : TAssignee (ZMod p)} {w : AVal (ZMod p)}, a.Wt → getA env a = .ok w →
    a.LiteralInBounds ∧ AllGood .bounds (subsL false a.indices)
  | .ident _ _, _, _, _ => ⟨trivial, AllGood.nil⟩
  | .select a i, w, hw, h => by
    obtain ⟨⟨n, t, hty⟩, h1, h2, h3⟩ := hw
    simp only [getA] at h
    obtain ⟨vs, h4, h⟩ := Prop'.exc_bind_ok h
    obtain ⟨k, h5, hsel⟩ := Prop'.exc_bind_ok h
    obtain ⟨u, h6, h4⟩ := bind_ok h4
    obtain ⟨u', h7, h5⟩ := bind_ok h5
    obtain ⟨g1, g2⟩ := getA_inBounds h3 h6
    refine ⟨⟨?_, g1⟩, ?_⟩
    · intro n' t' w' k' e1 e2
      rw [hty] at e1
      cases e1
      subst e2
      have ht := getA_hasType hty h6
      simp only [evalT] at h7
      cases h7
      have hk : k = k' := by
        simp only [asUint] at h5
        split at h5
        · cases h5; rfl
        · cases h5
      subst hk
      rw [asArray_ok h4] at ht
      simp only [HasType] at ht
      have := (List.getElem?_eq_some_iff.1 (selectVal_ok hsel)).1
      omega
    · rw [TAssignee.indices, subsL_append]
      refine AllGood.app.2 ⟨g2, ?_⟩
      simp only [subsL, List.append_nil]
      exact eval_good i u' h2 h7
  | .member a m, w, hw, h => by
    simp only [getA] at h
    obtain ⟨u, h1, h⟩ := Prop'.exc_bind_ok h
    have := getA_inBounds (a := a) hw.2 h1
    exact ⟨this.1, this.2⟩
  | .element a m, w, hw, h => by
    simp only [getA] at h
    obtain ⟨u, h1, h⟩ := Prop'.exc_bind_ok h
    have := getA_inBounds (a := a) hw.2 h1
    exact ⟨this.1, this.2⟩

theorem setA_inBounds {a : TAssignee (ZMod p)} {new u : AVal (ZMod p)} (hw : a.Wt) (h : setA env a new = .ok u) :
    a.LiteralInBounds ∧ AllGood .bounds (subsL false a.indices) := by
  by_cases hi : ∃ x t, a = .ident x t
  · obtain ⟨x, t, rfl⟩ := hi
    exact ⟨trivial, AllGood.nil⟩
  · obtain ⟨w, h1⟩ := setA_getA hw (fun x t e => hi ⟨x, t, e⟩) h
    exact getA_inBounds hw h1

theorem exec_good {Z : Type} {O : Oracle p Z} {r : CType} {s : TStmt (ZMod p)} {σ σ' : TState p} (hw : s.Wt r) (h : ExecT O σ s (.ok σ')) :
    AllGood .bounds (subsL false (s.exprs allCalls)) ∧ s.AssigneeInBounds := by
  cases h with
  | ret h1 => exact ⟨by simpa [TStmt.exprs, subsL] using eval_good _ _ hw.2 h1, trivial⟩
  | definition h1 h2 =>
    obtain ⟨g1, g2⟩ := setA_inBounds hw.2.1 h2
    exact ⟨AllGood.app.2 ⟨eval_good _ _ hw.2.2 h1, g2⟩, g1⟩
  | embed h1 _ _ _ h2 =>
    obtain ⟨g1, g2⟩ := setA_inBounds hw.2.1 h2
    refine ⟨?_, g1⟩
    simp only [TStmt.exprs, allCalls, if_true, subsL_append, AllGood.app]
    exact ⟨evalL_good _ _ hw.2.2 h1, g2⟩
  | assertOk h1 => exact ⟨by simpa [TStmt.exprs, subsL] using eval_good _ _ hw.2 h1, trivial⟩
  | log h1 => exact ⟨evalL_good _ _ hw h1, trivial⟩

theorem execs_good {Z : Type} {O : Oracle p Z} {r : CType} : ∀ {ss : List (TStmt (ZMod p))} {σ σ' : TState p}, (∀ s ∈ ss, s.Wt r) → ExecTs O σ ss (.ok σ') →
    ∀ s ∈ ss, AllGood .bounds (subsL false (s.exprs allCalls)) ∧ s.AssigneeInBounds
  | [], _, _, _, _, s, hs => by simp at hs
  | s :: ss, σ, σ', hw, h, s', hs => by
    cases h with
    | cons h1 h2 =>
      rcases List.mem_cons.1 hs with rfl | hs
      · exact exec_good (hw _ List.mem_cons_self) h1
      · exact execs_good (fun s hs => hw s (List.mem_cons_of_mem _ hs)) h2 s' hs

end

end Zok.Typed
