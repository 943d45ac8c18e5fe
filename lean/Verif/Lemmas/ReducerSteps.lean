import Verif.Lemmas.ReducerSlice

/-
The number of steps given to the reducer does not matter, as long as it is large enough.
-/

set_option linter.unusedSectionVars false
set_option linter.unusedSimpArgs false

namespace Zok.Typed
open Abi
variable {p : ℕ} [Fact p.Prime] {F : Type} {α β : Type}

/-- `y` succeeds with the same result whenever `x` succeeds. -/
def Below (x y : Except RErr α) : Prop := ∀ a, x = .ok a → y = .ok a

theorem Below.rfl {x : Except RErr α} : Below x x := fun _ h => h

theorem Below.bind {x y : Except RErr α} {f g : α → Except RErr β} (h : Below x y) (h' : ∀ a, Below (f a) (g a)) : Below (x >>= f) (y >>= g) := by
  intro b hb
  obtain ⟨a, h1, h2⟩ := rbind_ok hb
  rw [h a h1]
  exact h' a b h2

theorem Below.ite {c : Prop} [Decidable c] {x y x' y' : Except RErr α} (h : Below x y) (h' : Below x' y') : Below (if c then x else x') (if c then y else y') := by
  split
  · exact h
  · exact h'

section
variable {r r' : TExpr F → Except RErr (TExpr F)}

mutual
theorem sliceT_below (h : ∀ e, Below (r e) (r' e)) : ∀ e : TExpr F, Below (sliceT r e) (sliceT r' e)
  | .fval _ | .bval _ | .uval _ _ | .ident _ _ | .removed _ => by simp only [sliceT]; exact .rfl
  | .fbin _ a b | .fubin _ a b | .ubin _ _ a b | .bbin _ a b | .fcmp _ a b | .ucmp _ a b | .eq a b | .select _ a b | .repeat_ _ _ a b => by
    simp only [sliceT]
    exact .bind (sliceT_below h a) fun _ => .bind (sliceT_below h b) fun _ => .rfl
  | .fneg a | .fpos a | .unot _ a | .uneg _ a | .upos _ a | .bnot a | .member _ a _ | .element _ a _ => by
    simp only [sliceT]
    exact .bind (sliceT_below h a) fun _ => .rfl
  | .cond _ c a b => by
    simp only [sliceT]
    exact .bind (sliceT_below h c) fun _ => .bind (sliceT_below h a) fun _ => .bind (sliceT_below h b) fun _ => .rfl
  | .array _ _ es => by
    simp only [sliceT]
    exact .bind (sliceS_below h es) fun _ => .rfl
  | .slice _ _ a lo hi => by
    simp only [sliceT]
    exact .bind (h a) fun _ => .bind (h lo) fun _ => .bind (h hi) fun _ => .rfl
  | .struct _ es | .tuple _ es => by
    simp only [sliceT]
    exact .bind (sliceL_below h es) fun _ => .rfl
theorem sliceL_below (h : ∀ e, Below (r e) (r' e)) : ∀ es : List (TExpr F), Below (sliceL r es) (sliceL r' es)
  | [] => by simp only [sliceL]; exact .rfl
  | e :: es => by
    simp only [sliceL]
    exact .bind (sliceT_below h e) fun _ => .bind (sliceL_below h es) fun _ => .rfl
theorem sliceS_below (h : ∀ e, Below (r e) (r' e)) : ∀ es : List (TSpread F), Below (sliceS r es) (sliceS r' es)
  | [] => by simp only [sliceS]; exact .rfl
  | .expr e :: es | .spread e :: es => by
    simp only [sliceS]
    exact .bind (sliceT_below h e) fun _ => .bind (sliceS_below h es) fun _ => .rfl
end

theorem sliceA_below (h : ∀ e, Below (r e) (r' e)) : ∀ a : TAssignee F, Below (sliceA r a) (sliceA r' a)
  | .ident _ _ => by simp only [sliceA]; exact .rfl
  | .select a i => by
    simp only [sliceA]
    exact .bind (sliceA_below h a) fun _ => .bind (sliceT_below h i) fun _ => .rfl
  | .member a _ | .element a _ => by
    simp only [sliceA]
    exact .bind (sliceA_below h a) fun _ => .rfl

theorem sliceStmt_below (h : ∀ e, Below (r e) (r' e)) : ∀ s : TStmt F, Below (sliceStmt r s) (sliceStmt r' s)
  | .ret e | .assertion e _ => by
    simp only [sliceStmt]
    exact .bind (sliceT_below h e) fun _ => .rfl
  | .definition a e => by
    simp only [sliceStmt]
    exact .bind (sliceT_below h e) fun _ => .bind (sliceA_below h a) fun _ => .rfl
  | .embed a _ _ args => by
    simp only [sliceStmt]
    exact .bind (sliceL_below h args) fun _ => .bind (sliceA_below h a) fun _ => .rfl
  | .log es => by
    simp only [sliceStmt]
    exact .bind (sliceL_below h es) fun _ => .rfl

theorem sliceStmts_below (h : ∀ e, Below (r e) (r' e)) : ∀ ss : List (TStmt F), Below (sliceStmts r ss) (sliceStmts r' ss)
  | [] => by simp only [sliceStmts]; exact .rfl
  | s :: ss => by
    simp only [sliceStmts]
    exact .bind (sliceStmt_below h s) fun _ => .bind (sliceStmts_below h ss) fun _ => .rfl
end

variable {V : Vers} {fr : ℕ} {C : Consts (ZMod p)} {P : Program (ZMod p)}

theorem partF_below {V : Vers} {fr : ℕ} {C : Consts (ZMod p)} : ∀ (k : ℕ) (e : TExpr (ZMod p)), Below (partF V fr C k e) (partF V fr C (k + 1) e)
  | 0, e => by intro a h; simp only [partF] at h; cases h
  | k + 1, e => by
    simp only [partF]
    exact .bind .rfl fun _ => .bind (sliceT_below (partF_below k) _) fun _ => .rfl

theorem reduceExpr_below (k : ℕ) (e : TExpr (ZMod p)) : Below (reduceExpr V fr C k e) (reduceExpr V fr C (k + 1) e) := by
  simp only [reduceExpr]
  exact .bind .rfl fun _ => .bind (sliceT_below (partF_below k) _) fun _ => .rfl

theorem reduceExprs_below (k : ℕ) : ∀ es : List (TExpr (ZMod p)), Below (reduceExprs V fr C k es) (reduceExprs V fr C (k + 1) es)
  | [] => by simp only [reduceExprs]; exact .rfl
  | e :: es => by
    simp only [reduceExprs]
    exact .bind (reduceExpr_below k e) fun _ => .bind (reduceExprs_below k es) fun _ => .rfl

theorem reduceSimple_below (k : ℕ) (st : RState (ZMod p)) (s : TStmt (ZMod p)) : Below (reduceSimple k fr st s) (reduceSimple (k + 1) fr st s) := by
  simp only [reduceSimple]
  exact .bind .rfl fun _ => .bind (sliceStmts_below (partF_below k) _) fun _ => .rfl

theorem reduceMany_below {f g : RState F → SStmt F → Except RErr (RState F × List (TStmt F))} (h : ∀ st s, Below (f st s) (g st s)) :
    ∀ (ss : List (SStmt F)) (st : RState F), Below (reduceMany f st ss) (reduceMany g st ss)
  | [], st => by simp only [reduceMany]; exact .rfl
  | s :: ss, st => by
    simp only [reduceMany]
    exact .bind (h st s) fun _ => .bind (reduceMany_below h ss _) fun _ => .rfl

theorem inlineCall_below {run run' : ℕ → RState (ZMod p) → List (SStmt (ZMod p)) → Except RErr (RState (ZMod p) × List (TStmt (ZMod p)))} (h : ∀ fr st ss, Below (run fr st ss) (run' fr st ss))
    (k L : ℕ) (t : CType) (key : ℕ) (gs : List ℕ) (args : List (TExpr (ZMod p))) : Below (inlineCall P run k C L t key gs args) (inlineCall P run' (k + 1) C L t key gs args) := by
  simp only [inlineCall]
  split
  · exact .rfl
  · exact .bind .rfl fun _ => .bind .rfl fun _ => .bind (h _ _ _) fun _ => .bind (reduceExpr_below k _) fun _ => .rfl
  · exact .rfl

theorem reduceS_below : ∀ (k fr : ℕ) (st : RState (ZMod p)) (s : SStmt (ZMod p)), Below (reduceS P k fr st s) (reduceS P (k + 1) fr st s)
  | 0, fr, st, s => by intro a h; simp only [reduceS] at h; cases h
  | k + 1, fr, st, .simple s => by
    simp only [reduceS]
    exact reduceSimple_below k st s
  | k + 1, fr, st, .for_ x lo hi body => by
    rw [reduceS, reduceS]
    refine .bind (reduceExpr_below k _) fun lo' => .bind (reduceExpr_below k _) fun hi' => ?_
    split
    · exact .ite .rfl (reduceMany_below (reduceS_below k fr) _ _)
    · exact .rfl
  | k + 1, fr, st, .call a t key gens args => by
    rw [reduceS, reduceS]
    refine .bind .rfl fun _ => .bind .rfl fun _ => .bind .rfl fun _ => .ite .rfl <| .bind .rfl fun _ => .bind (sliceStmts_below (partF_below k) _) fun _ =>
      .bind (reduceExprs_below k _) fun _ => .bind (reduceExprs_below k _) fun _ => .bind .rfl fun _ => .bind (inlineCall_below (fun fr st ss => ?_) k _ _ _ _ _) fun _ =>
      .bind (sliceA_below (partF_below k) _) fun _ => .rfl
    exact reduceMany_below (reduceS_below k fr) _ _

theorem reduce_below {k : ℕ} {f : SFun (ZMod p)} : Below (reduce P k f) (reduce P (k + 1) f) := by
  simp only [reduce]
  exact .bind (reduceMany_below (reduceS_below k 0) _ _) fun _ => .rfl

end Zok.Typed
