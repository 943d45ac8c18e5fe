import Verif.Lemmas.TypedPropStmt
import Verif.Lemmas.ConditionRedefinerStmt
import Verif.Spec.Reducer

/-
The reducer: replacing identifiers, and expressions without slices.
-/

set_option linter.unusedSectionVars false
set_option linter.unusedSimpArgs false

namespace Zok.Typed
open Abi
variable {p : ℕ} [Fact p.Prime]

/-! ### Replacing identifiers -/

theorem ty_ren {F : Type} (r : TId → TId) : ∀ e : TExpr F, (e.ren r).ty = e.ty
  | .fval _ | .bval _ | .uval _ _ | .removed _ | .ident _ _ | .fbin _ _ _ | .fubin _ _ _ | .fneg _ | .fpos _ | .ubin _ _ _ _ | .unot _ _ | .uneg _ _ | .upos _ _ | .bbin _ _ _ | .bnot _ | .fcmp _ _ _ | .ucmp _ _ _ | .eq _ _ | .cond _ _ _ _ | .select _ _ _ | .member _ _ _ | .element _ _ _ | .array _ _ _ | .slice _ _ _ _ _ | .repeat_ _ _ _ _ | .struct _ _ | .tuple _ _ => by simp only [TExpr.ren, TExpr.ty]


theorem isConst_ren {F : Type} (r : TId → TId) (e : TExpr F) : (e.ren r).isConst = e.isConst := by
  cases e with
  | fubin op a b => cases op <;> cases b <;> simp only [TExpr.ren, TExpr.isConst] <;> (rename_i n; cases n <;> simp only [TExpr.ren, TExpr.isConst])
  | _ => simp only [TExpr.ren, TExpr.isConst]

theorem renL_map {F : Type} (r : TId → TId) : ∀ es : List (TExpr F), renL r es = es.map (TExpr.ren r)
  | [] => rfl
  | e :: es => by simp only [renL, renL_map r es, List.map_cons]

theorem renL_tys {F : Type} (r : TId → TId) (es : List (TExpr F)) : (renL r es).map TExpr.ty = es.map TExpr.ty := by
  simp [renL_map, ty_ren]

mutual
theorem vars_renT {F : Type} (r : TId → TId) : ∀ e : TExpr F, (e.ren r).vars = e.vars.map r
  | .fval _ | .bval _ | .uval _ _ | .removed _ | .ident _ _ => by simp [TExpr.ren, TExpr.vars]
  | .fneg e => by simp [TExpr.ren, TExpr.vars, vars_renT r e]
  | .fpos e => by simp [TExpr.ren, TExpr.vars, vars_renT r e]
  | .unot w e => by simp [TExpr.ren, TExpr.vars, vars_renT r e]
  | .uneg w e => by simp [TExpr.ren, TExpr.vars, vars_renT r e]
  | .upos w e => by simp [TExpr.ren, TExpr.vars, vars_renT r e]
  | .bnot e => by simp [TExpr.ren, TExpr.vars, vars_renT r e]
  | .fbin op a b => by simp [TExpr.ren, TExpr.vars, vars_renT r a, vars_renT r b]
  | .fubin op a b => by simp [TExpr.ren, TExpr.vars, vars_renT r a, vars_renT r b]
  | .ubin w op a b => by simp [TExpr.ren, TExpr.vars, vars_renT r a, vars_renT r b]
  | .bbin op a b => by simp [TExpr.ren, TExpr.vars, vars_renT r a, vars_renT r b]
  | .fcmp op a b => by simp [TExpr.ren, TExpr.vars, vars_renT r a, vars_renT r b]
  | .ucmp op a b => by simp [TExpr.ren, TExpr.vars, vars_renT r a, vars_renT r b]
  | .eq a b => by simp [TExpr.ren, TExpr.vars, vars_renT r a, vars_renT r b]
  | .cond t c a b => by simp [TExpr.ren, TExpr.vars, vars_renT r a, vars_renT r b, vars_renT r c]
  | .select t a i => by simp [TExpr.ren, TExpr.vars, vars_renT r a, vars_renT r i]
  | .member t a i => by simp [TExpr.ren, TExpr.vars, vars_renT r a]
  | .element t a i => by simp [TExpr.ren, TExpr.vars, vars_renT r a]
  | .array t n es => by simp [TExpr.ren, TExpr.vars, vars_renS r es]
  | .slice t n a lo hi => by simp [TExpr.ren, TExpr.vars, vars_renT r a, vars_renT r lo, vars_renT r hi]
  | .repeat_ t n a c => by simp [TExpr.ren, TExpr.vars, vars_renT r a, vars_renT r c]
  | .struct t es => by simp [TExpr.ren, TExpr.vars, vars_renL r es]
  | .tuple t es => by simp [TExpr.ren, TExpr.vars, vars_renL r es]
theorem vars_renL {F : Type} (r : TId → TId) : ∀ e : List (TExpr F), varsL (renL r e) = (varsL e).map r
  | [] => by simp [renL, varsL]
  | e :: es => by simp [renL, varsL, vars_renT r e, vars_renL r es]
theorem vars_renS {F : Type} (r : TId → TId) : ∀ e : List (TSpread F), varsS (renS r e) = (varsS e).map r
  | [] => by simp [renS, varsS]
  | .expr e :: es => by simp [renS, varsS, vars_renT r e, vars_renS r es]
  | .spread e :: es => by simp [renS, varsS, vars_renT r e, vars_renS r es]
end

mutual
theorem noSlice_renT {F : Type} (r : TId → TId) : ∀ e : TExpr F, (e.ren r).NoSlice ↔ e.NoSlice
  | .fval _ | .bval _ | .uval _ _ | .removed _ | .ident _ _ | .slice _ _ _ _ _ => by simp only [TExpr.ren, TExpr.NoSlice]
  | .fneg e => by simp only [TExpr.ren, TExpr.NoSlice, noSlice_renT r e]
  | .fpos e => by simp only [TExpr.ren, TExpr.NoSlice, noSlice_renT r e]
  | .unot w e => by simp only [TExpr.ren, TExpr.NoSlice, noSlice_renT r e]
  | .uneg w e => by simp only [TExpr.ren, TExpr.NoSlice, noSlice_renT r e]
  | .upos w e => by simp only [TExpr.ren, TExpr.NoSlice, noSlice_renT r e]
  | .bnot e => by simp only [TExpr.ren, TExpr.NoSlice, noSlice_renT r e]
  | .fbin op a b => by simp only [TExpr.ren, TExpr.NoSlice, noSlice_renT r a, noSlice_renT r b]
  | .fubin op a b => by simp only [TExpr.ren, TExpr.NoSlice, noSlice_renT r a, noSlice_renT r b]
  | .ubin w op a b => by simp only [TExpr.ren, TExpr.NoSlice, noSlice_renT r a, noSlice_renT r b]
  | .bbin op a b => by simp only [TExpr.ren, TExpr.NoSlice, noSlice_renT r a, noSlice_renT r b]
  | .fcmp op a b => by simp only [TExpr.ren, TExpr.NoSlice, noSlice_renT r a, noSlice_renT r b]
  | .ucmp op a b => by simp only [TExpr.ren, TExpr.NoSlice, noSlice_renT r a, noSlice_renT r b]
  | .eq a b => by simp only [TExpr.ren, TExpr.NoSlice, noSlice_renT r a, noSlice_renT r b]
  | .cond t c a b => by simp only [TExpr.ren, TExpr.NoSlice, noSlice_renT r a, noSlice_renT r b, noSlice_renT r c]
  | .select t a i => by simp only [TExpr.ren, TExpr.NoSlice, noSlice_renT r a, noSlice_renT r i]
  | .member t a i => by simp only [TExpr.ren, TExpr.NoSlice, noSlice_renT r a]
  | .element t a i => by simp only [TExpr.ren, TExpr.NoSlice, noSlice_renT r a]
  | .array t n es => by simp only [TExpr.ren, TExpr.NoSlice, noSlice_renS r es]
  | .repeat_ t n a c => by simp only [TExpr.ren, TExpr.NoSlice, noSlice_renT r a, noSlice_renT r c]
  | .struct t es => by simp only [TExpr.ren, TExpr.NoSlice, noSlice_renL r es]
  | .tuple t es => by simp only [TExpr.ren, TExpr.NoSlice, noSlice_renL r es]
theorem noSlice_renL {F : Type} (r : TId → TId) : ∀ e : List (TExpr F), NoSliceL (renL r e) ↔ NoSliceL e
  | [] => by simp only [renL, NoSliceL]
  | e :: es => by simp only [renL, NoSliceL, noSlice_renT r e, noSlice_renL r es]
theorem noSlice_renS {F : Type} (r : TId → TId) : ∀ e : List (TSpread F), NoSliceS (renS r e) ↔ NoSliceS e
  | [] => by simp only [renS, NoSliceS]
  | .expr e :: es => by simp only [renS, NoSliceS, noSlice_renT r e, noSlice_renS r es]
  | .spread e :: es => by simp only [renS, NoSliceS, noSlice_renT r e, noSlice_renS r es]
end

theorem spreadCount_ren {F : Type} (r : TId → TId) (t : CType) : ∀ (es : List (TSpread F)) (n : ℕ), spreadCount t (renS r es) n ↔ spreadCount t es n
  | [], n => by simp only [renS, spreadCount]
  | .expr e :: es, n => by simp only [renS, spreadCount, spreadCount_ren r t es]
  | .spread e :: es, n => by simp only [renS, spreadCount, spreadCount_ren r t es, ty_ren]

theorem uval_ren {F : Type} (r : TId → TId) (e : TExpr F) (w : UW) (n : ℕ) : e.ren r = .uval w n ↔ e = .uval w n := by
  cases e <;> simp [TExpr.ren]

mutual
theorem wt_renT {F : Type} (r : TId → TId) : ∀ e : TExpr F, (e.ren r).Wt ↔ e.Wt
  | .fval _ | .bval _ | .uval _ _ | .removed _ | .ident _ _ => by simp only [TExpr.ren, TExpr.Wt, ty_ren]
  | .fneg e => by simp only [TExpr.ren, TExpr.Wt, ty_ren, wt_renT r e]
  | .fpos e => by simp only [TExpr.ren, TExpr.Wt, ty_ren, wt_renT r e]
  | .unot w e => by simp only [TExpr.ren, TExpr.Wt, ty_ren, wt_renT r e]
  | .uneg w e => by simp only [TExpr.ren, TExpr.Wt, ty_ren, wt_renT r e]
  | .upos w e => by simp only [TExpr.ren, TExpr.Wt, ty_ren, wt_renT r e]
  | .bnot e => by simp only [TExpr.ren, TExpr.Wt, ty_ren, wt_renT r e]
  | .fbin op a b => by simp only [TExpr.ren, TExpr.Wt, ty_ren, wt_renT r a, wt_renT r b]
  | .fubin op a b => by simp only [TExpr.ren, TExpr.Wt, ty_ren, wt_renT r a, wt_renT r b]
  | .ubin w op a b => by simp only [TExpr.ren, TExpr.Wt, ty_ren, wt_renT r a, wt_renT r b]
  | .bbin op a b => by simp only [TExpr.ren, TExpr.Wt, ty_ren, wt_renT r a, wt_renT r b]
  | .fcmp op a b => by simp only [TExpr.ren, TExpr.Wt, ty_ren, wt_renT r a, wt_renT r b]
  | .ucmp op a b => by simp only [TExpr.ren, TExpr.Wt, ty_ren, wt_renT r a, wt_renT r b]
  | .eq a b => by simp only [TExpr.ren, TExpr.Wt, ty_ren, wt_renT r a, wt_renT r b]
  | .cond t c a b => by simp only [TExpr.ren, TExpr.Wt, ty_ren, wt_renT r a, wt_renT r b, wt_renT r c]
  | .select t a i => by simp only [TExpr.ren, TExpr.Wt, ty_ren, wt_renT r a, wt_renT r i]
  | .member t a i => by simp only [TExpr.ren, TExpr.Wt, ty_ren, wt_renT r a]
  | .element t a i => by simp only [TExpr.ren, TExpr.Wt, ty_ren, wt_renT r a]
  | .array t n es => by simp only [TExpr.ren, TExpr.Wt, ty_ren, wt_renS r t es, spreadCount_ren]
  | .slice t n a lo hi => by simp only [TExpr.ren, TExpr.Wt, ty_ren, wt_renT r a, uval_ren]
  | .repeat_ t n a c => by simp only [TExpr.ren, TExpr.Wt, ty_ren, wt_renT r a, uval_ren]
  | .struct t es => by simp only [TExpr.ren, TExpr.Wt, ty_ren, wt_renL r es, renL_tys]
  | .tuple t es => by simp only [TExpr.ren, TExpr.Wt, ty_ren, wt_renL r es, renL_tys]
theorem wt_renL {F : Type} (r : TId → TId) : ∀ e : List (TExpr F), WtL (renL r e) ↔ WtL e
  | [] => by simp only [renL, WtL]
  | e :: es => by simp only [renL, WtL, wt_renT r e, wt_renL r es]
theorem wt_renS {F : Type} (r : TId → TId) (t : CType) : ∀ e : List (TSpread F), WtS t (renS r e) ↔ WtS t e
  | [] => by simp only [renS, WtS]
  | .expr e :: es => by simp only [renS, WtS, wt_renT r e, wt_renS r t es, ty_ren]
  | .spread e :: es => by simp only [renS, WtS, wt_renT r e, wt_renS r t es]
end

mutual
theorem eval_renT (env : TEnv p) (r : TId → TId) : ∀ e : TExpr (ZMod p), evalT env (e.ren r) = evalT (fun x => env (r x)) e
  | .fval _ | .bval _ | .uval _ _ | .removed _ | .ident _ _ => by simp only [TExpr.ren, evalT, ty_ren, isConst_ren]
  | .fneg e => by simp only [TExpr.ren, evalT, ty_ren, isConst_ren, eval_renT env r e]
  | .fpos e => by simp only [TExpr.ren, evalT, ty_ren, isConst_ren, eval_renT env r e]
  | .unot w e => by simp only [TExpr.ren, evalT, ty_ren, isConst_ren, eval_renT env r e]
  | .uneg w e => by simp only [TExpr.ren, evalT, ty_ren, isConst_ren, eval_renT env r e]
  | .upos w e => by simp only [TExpr.ren, evalT, ty_ren, isConst_ren, eval_renT env r e]
  | .bnot e => by simp only [TExpr.ren, evalT, ty_ren, isConst_ren, eval_renT env r e]
  | .fbin op a b => by simp only [TExpr.ren, evalT, ty_ren, isConst_ren, eval_renT env r a, eval_renT env r b]
  | .fubin op a b => by simp only [TExpr.ren, evalT, ty_ren, isConst_ren, eval_renT env r a, eval_renT env r b]
  | .ubin w op a b => by simp only [TExpr.ren, evalT, ty_ren, isConst_ren, eval_renT env r a, eval_renT env r b]
  | .bbin op a b => by simp only [TExpr.ren, evalT, ty_ren, isConst_ren, eval_renT env r a, eval_renT env r b]
  | .fcmp op a b => by simp only [TExpr.ren, evalT, ty_ren, isConst_ren, eval_renT env r a, eval_renT env r b]
  | .ucmp op a b => by simp only [TExpr.ren, evalT, ty_ren, isConst_ren, eval_renT env r a, eval_renT env r b]
  | .eq a b => by simp only [TExpr.ren, evalT, ty_ren, isConst_ren, eval_renT env r a, eval_renT env r b]
  | .cond t c a b => by simp only [TExpr.ren, evalT, ty_ren, isConst_ren, eval_renT env r a, eval_renT env r b, eval_renT env r c]
  | .select t a i => by simp only [TExpr.ren, evalT, ty_ren, isConst_ren, eval_renT env r a, eval_renT env r i]
  | .member t a i => by simp only [TExpr.ren, evalT, ty_ren, isConst_ren, eval_renT env r a]
  | .element t a i => by simp only [TExpr.ren, evalT, ty_ren, isConst_ren, eval_renT env r a]
  | .array t n es => by simp only [TExpr.ren, evalT, ty_ren, isConst_ren, eval_renS env r es]
  | .slice t n a lo hi => by simp only [TExpr.ren, evalT, ty_ren, isConst_ren, eval_renT env r a, eval_renT env r lo, eval_renT env r hi]
  | .repeat_ t n a c => by simp only [TExpr.ren, evalT, ty_ren, isConst_ren, eval_renT env r a, eval_renT env r c]
  | .struct t es => by simp only [TExpr.ren, evalT, ty_ren, isConst_ren, eval_renL env r es]
  | .tuple t es => by simp only [TExpr.ren, evalT, ty_ren, isConst_ren, eval_renL env r es]
theorem eval_renL (env : TEnv p) (r : TId → TId) : ∀ e : List (TExpr (ZMod p)), evalL env (renL r e) = evalL (fun x => env (r x)) e
  | [] => by simp only [renL, evalL]
  | e :: es => by simp only [renL, evalL, eval_renT env r e, eval_renL env r es]
theorem eval_renS (env : TEnv p) (r : TId → TId) : ∀ e : List (TSpread (ZMod p)), evalS env (renS r e) = evalS (fun x => env (r x)) e
  | [] => by simp only [renS, evalS]
  | .expr e :: es => by simp only [renS, evalS, eval_renT env r e, eval_renS env r es]
  | .spread e :: es => by simp only [renS, evalS, eval_renT env r e, eval_renS env r es]
end

/-! ### Assignees -/

theorem root_ren {F : Type} (r : TId → TId) : ∀ a : TAssignee F, (a.ren r).root = r a.root
  | .ident _ _ => rfl
  | .select a i => by simp only [TAssignee.ren, TAssignee.root, root_ren r a]
  | .member a i => by simp only [TAssignee.ren, TAssignee.root, root_ren r a]
  | .element a i => by simp only [TAssignee.ren, TAssignee.root, root_ren r a]

theorem aty_ren {F : Type} (r : TId → TId) : ∀ a : TAssignee F, (a.ren r).ty = a.ty
  | .ident _ _ => rfl
  | .select a i => by simp only [TAssignee.ren, TAssignee.ty, aty_ren r a]
  | .member a i => by simp only [TAssignee.ren, TAssignee.ty, aty_ren r a]
  | .element a i => by simp only [TAssignee.ren, TAssignee.ty, aty_ren r a]

theorem awt_ren {F : Type} (r : TId → TId) : ∀ a : TAssignee F, (a.ren r).Wt ↔ a.Wt
  | .ident _ _ => Iff.rfl
  | .select a i => by simp only [TAssignee.ren, TAssignee.Wt, awt_ren r a, aty_ren, ty_ren, wt_renT]
  | .member a i => by simp only [TAssignee.ren, TAssignee.Wt, awt_ren r a, aty_ren]
  | .element a i => by simp only [TAssignee.ren, TAssignee.Wt, awt_ren r a, aty_ren]

theorem indices_ren {F : Type} (r : TId → TId) : ∀ a : TAssignee F, (a.ren r).indices = renL r a.indices
  | .ident _ _ => rfl
  | .select a i => by simp [TAssignee.ren, TAssignee.indices, indices_ren r a, renL_map]
  | .member a i => by simp only [TAssignee.ren, TAssignee.indices, indices_ren r a]
  | .element a i => by simp only [TAssignee.ren, TAssignee.indices, indices_ren r a]

theorem get_ren (env : TEnv p) (r : TId → TId) : ∀ a : TAssignee (ZMod p), getA env (a.ren r) = getA (fun x => env (r x)) a
  | .ident x t => by simp only [TAssignee.ren, getA, evalT]
  | .select a i => by simp only [TAssignee.ren, getA, get_ren env r a, eval_renT]
  | .member a i => by simp only [TAssignee.ren, getA, get_ren env r a]
  | .element a i => by simp only [TAssignee.ren, getA, get_ren env r a]

theorem set_ren (env : TEnv p) (r : TId → TId) : ∀ (a : TAssignee (ZMod p)) (v : AVal (ZMod p)), setA env (a.ren r) v = setA (fun x => env (r x)) a v
  | .ident x t, v => by simp only [TAssignee.ren, setA]
  | .select a i, v => by simp only [TAssignee.ren, setA, get_ren, eval_renT, set_ren env r a]
  | .member a i, v => by simp only [TAssignee.ren, setA, get_ren, set_ren env r a]
  | .element a i, v => by simp only [TAssignee.ren, setA, get_ren, set_ren env r a]

/-! ### Propagation adds no slices -/

mutual
theorem canon_noSlice {F : Type} : ∀ {c : TExpr F}, c.IsCanon → c.NoSlice
  | .fval _, _ | .bval _, _ | .uval _ _, _ => by simp only [TExpr.NoSlice]
  | .array _ _ es, h => by simp only [TExpr.NoSlice]; exact canonS_noSlice h
  | .struct _ es, h => by simp only [TExpr.NoSlice]; exact canonL_noSlice h
  | .tuple _ es, h => by simp only [TExpr.NoSlice]; exact canonL_noSlice h
theorem canonL_noSlice {F : Type} : ∀ {c : List (TExpr F)}, IsCanonL c → NoSliceL c
  | [], _ => by simp only [NoSliceL]
  | e :: es, h => by simp only [NoSliceL]; exact ⟨canon_noSlice h.1, canonL_noSlice h.2⟩
theorem canonS_noSlice {F : Type} : ∀ {c : List (TSpread F)}, IsCanonS c → NoSliceS c
  | [], _ => by simp only [NoSliceS]
  | .expr e :: es, h => by simp only [NoSliceS]; exact ⟨canon_noSlice h.1, canonS_noSlice h.2⟩
end

/-- The expression of an element. -/
def TSpread.NoSlice {F : Type} : TSpread F → Prop
  | .expr e => e.NoSlice
  | .spread e => e.NoSlice

theorem noSliceS_iff {F : Type} : ∀ {es : List (TSpread F)}, NoSliceS es ↔ ∀ e ∈ es, e.NoSlice
  | [] => by simp [NoSliceS]
  | .expr e :: es => by simp [NoSliceS, noSliceS_iff (es := es), TSpread.NoSlice]
  | .spread e :: es => by simp [NoSliceS, noSliceS_iff (es := es), TSpread.NoSlice]

theorem noSliceL_iff {F : Type} : ∀ {es : List (TExpr F)}, NoSliceL es ↔ ∀ e ∈ es, e.NoSlice
  | [] => by simp [NoSliceL]
  | e :: es => by simp [NoSliceL, noSliceL_iff (es := es)]

mutual
theorem atomsA_noSlice {F : Type} {t : CType} : ∀ {e : TExpr F}, e.NoSlice → ∀ x ∈ atomsA t e, x.NoSlice
  | .array _ _ es, h, x, hx => by
    simp only [TExpr.NoSlice] at h
    simp only [atomsA] at hx
    exact atomsS_noSlice h x hx
  | .fval _, h, x, hx => by
    simp only [atomsA, List.mem_map] at hx
    obtain ⟨i, -, rfl⟩ := hx
    exact ⟨h, trivial⟩
  | .bval _, h, x, hx => by
    simp only [atomsA, List.mem_map] at hx
    obtain ⟨i, -, rfl⟩ := hx
    exact ⟨h, trivial⟩
  | .uval _ _, h, x, hx => by
    simp only [atomsA, List.mem_map] at hx
    obtain ⟨i, -, rfl⟩ := hx
    exact ⟨h, trivial⟩
  | .removed _, h, x, hx => by
    simp only [atomsA, List.mem_map] at hx
    obtain ⟨i, -, rfl⟩ := hx
    exact ⟨h, trivial⟩
  | .ident _ _, h, x, hx => by
    simp only [atomsA, List.mem_map] at hx
    obtain ⟨i, -, rfl⟩ := hx
    exact ⟨h, trivial⟩
  | .fbin _ _ _, h, x, hx => by
    simp only [atomsA, List.mem_map] at hx
    obtain ⟨i, -, rfl⟩ := hx
    exact ⟨h, trivial⟩
  | .fubin _ _ _, h, x, hx => by
    simp only [atomsA, List.mem_map] at hx
    obtain ⟨i, -, rfl⟩ := hx
    exact ⟨h, trivial⟩
  | .fneg _, h, x, hx => by
    simp only [atomsA, List.mem_map] at hx
    obtain ⟨i, -, rfl⟩ := hx
    exact ⟨h, trivial⟩
  | .fpos _, h, x, hx => by
    simp only [atomsA, List.mem_map] at hx
    obtain ⟨i, -, rfl⟩ := hx
    exact ⟨h, trivial⟩
  | .ubin _ _ _ _, h, x, hx => by
    simp only [atomsA, List.mem_map] at hx
    obtain ⟨i, -, rfl⟩ := hx
    exact ⟨h, trivial⟩
  | .unot _ _, h, x, hx => by
    simp only [atomsA, List.mem_map] at hx
    obtain ⟨i, -, rfl⟩ := hx
    exact ⟨h, trivial⟩
  | .uneg _ _, h, x, hx => by
    simp only [atomsA, List.mem_map] at hx
    obtain ⟨i, -, rfl⟩ := hx
    exact ⟨h, trivial⟩
  | .upos _ _, h, x, hx => by
    simp only [atomsA, List.mem_map] at hx
    obtain ⟨i, -, rfl⟩ := hx
    exact ⟨h, trivial⟩
  | .bbin _ _ _, h, x, hx => by
    simp only [atomsA, List.mem_map] at hx
    obtain ⟨i, -, rfl⟩ := hx
    exact ⟨h, trivial⟩
  | .bnot _, h, x, hx => by
    simp only [atomsA, List.mem_map] at hx
    obtain ⟨i, -, rfl⟩ := hx
    exact ⟨h, trivial⟩
  | .fcmp _ _ _, h, x, hx => by
    simp only [atomsA, List.mem_map] at hx
    obtain ⟨i, -, rfl⟩ := hx
    exact ⟨h, trivial⟩
  | .ucmp _ _ _, h, x, hx => by
    simp only [atomsA, List.mem_map] at hx
    obtain ⟨i, -, rfl⟩ := hx
    exact ⟨h, trivial⟩
  | .eq _ _, h, x, hx => by
    simp only [atomsA, List.mem_map] at hx
    obtain ⟨i, -, rfl⟩ := hx
    exact ⟨h, trivial⟩
  | .cond _ _ _ _, h, x, hx => by
    simp only [atomsA, List.mem_map] at hx
    obtain ⟨i, -, rfl⟩ := hx
    exact ⟨h, trivial⟩
  | .select _ _ _, h, x, hx => by
    simp only [atomsA, List.mem_map] at hx
    obtain ⟨i, -, rfl⟩ := hx
    exact ⟨h, trivial⟩
  | .member _ _ _, h, x, hx => by
    simp only [atomsA, List.mem_map] at hx
    obtain ⟨i, -, rfl⟩ := hx
    exact ⟨h, trivial⟩
  | .element _ _ _, h, x, hx => by
    simp only [atomsA, List.mem_map] at hx
    obtain ⟨i, -, rfl⟩ := hx
    exact ⟨h, trivial⟩
  | .slice _ _ _ _ _, h, x, hx => by
    simp only [atomsA, List.mem_map] at hx
    obtain ⟨i, -, rfl⟩ := hx
    exact ⟨h, trivial⟩
  | .repeat_ _ _ _ _, h, x, hx => by
    simp only [atomsA, List.mem_map] at hx
    obtain ⟨i, -, rfl⟩ := hx
    exact ⟨h, trivial⟩
  | .struct _ _, h, x, hx => by
    simp only [atomsA, List.mem_map] at hx
    obtain ⟨i, -, rfl⟩ := hx
    exact ⟨h, trivial⟩
  | .tuple _ _, h, x, hx => by
    simp only [atomsA, List.mem_map] at hx
    obtain ⟨i, -, rfl⟩ := hx
    exact ⟨h, trivial⟩
theorem atomsS_noSlice {F : Type} {t : CType} : ∀ {es : List (TSpread F)}, NoSliceS es → ∀ x ∈ atomsS t es, x.NoSlice
  | [], _, x, hx => by simp [atomsS] at hx
  | .expr e :: es, h, x, hx => by
    simp only [atomsS, List.mem_cons] at hx
    simp only [NoSliceS] at h
    rcases hx with rfl | hx
    · exact h.1
    · exact atomsS_noSlice h.2 x hx
  | .spread e :: es, h, x, hx => by
    simp only [atomsS, List.mem_append] at hx
    simp only [NoSliceS] at h
    rcases hx with hx | hx
    · exact atomsA_noSlice h.1 x hx
    · exact atomsS_noSlice h.2 x hx
end

theorem simplifyS_noSlice {F : Type} {es : List (TSpread F)} (h : NoSliceS es) : NoSliceS (simplifyS es) := by
  rw [noSliceS_iff] at h ⊢
  intro e he
  simp only [simplifyS, List.mem_filter, List.mem_flatMap] at he
  obtain ⟨⟨a, h1, h2⟩, -⟩ := he
  have h3 := h a h1
  cases a with
  | expr a => simp only [inlineSpread, List.mem_singleton] at h2; subst h2; exact h3
  | spread a =>
    simp only [inlineSpread] at h2
    split at h2
    · rename_i es' hes
      cases a <;> simp [TExpr.arrayOf] at hes
      subst hes
      simp only [TSpread.NoSlice, TExpr.NoSlice] at h3
      exact noSliceS_iff.1 h3 e h2
    · simp only [List.mem_singleton] at h2; subst h2; exact h3

variable {l r e : TExpr (ZMod p)}

theorem ofNat_noSlice {n : ℕ} (h : ofNat? n = .ok e) : e.NoSlice := by
  unfold ofNat? at h
  split at h
  · cases h; trivial
  · cases h

theorem foldF_noSlice {op : FOp} (hl : l.NoSlice) (hr : r.NoSlice) (h : foldF op l r = .ok e) : e.NoSlice := by
  cases op <;> simp only [foldF] at h <;> repeat' split at h
  all_goals first
    | (cases h; done)
    | (cases h; first | exact trivial | exact ⟨hl, hr⟩ | exact hl | exact hr)
    | exact ofNat_noSlice h

theorem foldFU_noSlice {op : FUOp} (hl : l.NoSlice) (hr : r.NoSlice) (h : foldFU op l r = .ok e) : e.NoSlice := by
  cases op <;> simp only [foldFU] at h <;> repeat' split at h
  all_goals first
    | (cases h; done)
    | (cases h; first | exact trivial | exact ⟨hl, hr⟩ | exact hl | exact hr)
    | exact ofNat_noSlice h

theorem foldU_noSlice {w : UW} {op : UOp} (hl : l.NoSlice) (hr : r.NoSlice) (h : foldU w op l r = .ok e) : e.NoSlice := by
  cases op <;> simp only [foldU] at h <;> repeat' split at h
  all_goals first
    | (cases h; done)
    | (cases h; first | exact trivial | exact ⟨hl, hr⟩ | exact ⟨hl, trivial⟩ | exact ⟨hr, trivial⟩ | exact hl | exact hr)

theorem foldB_noSlice {op : BOp} (hl : l.NoSlice) (hr : r.NoSlice) : (foldB op l r).NoSlice := by
  cases op <;> simp only [foldB] <;> repeat' split
  all_goals first | exact trivial | exact ⟨hl, hr⟩ | exact hl | exact hr

theorem foldEq_noSlice (hl : l.NoSlice) (hr : r.NoSlice) (h : foldEq l r = .ok e) : e.NoSlice := by
  unfold foldEq at h
  split at h
  · cases h
  · split at h
    · cases h; trivial
    · split at h
      · obtain ⟨_, _, h⟩ := pbind_ok h
        obtain ⟨_, _, h⟩ := pbind_ok h
        cases h; trivial
      · cases h; exact ⟨hl, hr⟩

theorem selectConst_noSlice {c : TExpr (ZMod p)} {ta : CType} {k : ℕ} (hc : c.NoSlice) (h : selectConst c ta k = .ok e) : e.NoSlice := by
  unfold selectConst at h
  split at h
  · cases h
  · split at h
    · rename_i es n hes _
      cases c <;> simp [TExpr.arrayOf] at hes
      subst hes
      simp only [TExpr.NoSlice] at hc
      split at h
      · cases h
      · split at h
        · split at h
          · rename_i e' he'
            cases h
            exact noSliceS_iff.1 hc _ (List.mem_of_getElem? he')
          · cases h
        · cases h
    · cases h

theorem foldSelect_noSlice {t : CType} {n : ℕ} (hl : l.NoSlice) (hr : r.NoSlice) (h : foldSelect t l r n = .ok e) : e.NoSlice := by
  unfold foldSelect at h
  split at h
  · rename_i es k hes _
    cases l <;> simp [TExpr.arrayOf] at hes
    subst hes
    simp only [TExpr.NoSlice] at hl
    split at h
    · split at h
      · rename_i e' he'
        cases h
        exact atomsS_noSlice hl _ (List.mem_of_getElem? he')
      · cases h
    · cases h
  · cases h; exact ⟨hl, hr⟩

theorem lookup_zip_mem {α : Type} {m : Str} {v : α} : ∀ {ks : List Str} {vs : List α}, (ks.zip vs).lookup m = some v → v ∈ vs
  | [], vs, h => by simp at h
  | k :: ks, [], h => by simp at h
  | k :: ks, u :: vs, h => by
    simp only [List.zip_cons_cons, List.lookup_cons] at h
    split at h
    · cases h; exact List.mem_cons_self
    · exact List.mem_cons_of_mem _ (lookup_zip_mem h)

theorem foldMember_noSlice {t : CType} {m : Str} (hl : l.NoSlice) (h : foldMember t l m = .ok e) : e.NoSlice := by
  unfold foldMember at h
  split at h
  · rename_i ms es hes
    cases l <;> simp [TExpr.structOf] at hes
    obtain ⟨rfl, rfl⟩ := hes
    simp only [TExpr.NoSlice] at hl
    split at h
    · rename_i e' he'
      cases h
      exact noSliceL_iff.1 hl _ (lookup_zip_mem he')
    · cases h
  · cases h; exact hl

theorem foldElement_noSlice {t : CType} {i : ℕ} (hl : l.NoSlice) (h : foldElement t l i = .ok e) : e.NoSlice := by
  unfold foldElement at h
  split at h
  · rename_i es hes
    cases l <;> simp [TExpr.tupleOf] at hes
    subst hes
    simp only [TExpr.NoSlice] at hl
    split at h
    · rename_i e' he'
      cases h
      exact noSliceL_iff.1 hl _ (List.mem_of_getElem? he')
    · cases h
  · cases h; exact hl

mutual
theorem propT_noSlice {C : Consts (ZMod p)} (hC : GoodC C) : ∀ (e e' : TExpr (ZMod p)), propT C e = .ok e' → e.NoSlice → e'.NoSlice
  | .fval n, e', h, w | .bval n, e', h, w | .uval _ n, e', h, w | .removed _, e', h, w => by simp only [propT] at h; cases h; trivial
  | .ident x t, e', h, w => by
    simp only [propT] at h
    split at h
    · rename_i c hc
      split at h
      · cases h; exact canon_noSlice (hC x _ hc).canon
      · cases h
    · cases h; trivial
  | .fneg l, e', h, w => by
    simp only [propT] at h
    obtain ⟨l', h1, h⟩ := pbind_ok h
    have i1 := propT_noSlice hC _ _ h1 w
    cases h
    unfold foldFneg
    split
    · trivial
    · exact i1
  | .fpos l, e', h, w => by
    simp only [propT] at h
    obtain ⟨l', h1, h⟩ := pbind_ok h
    have i1 := propT_noSlice hC _ _ h1 w
    cases h
    unfold foldFpos
    split
    · trivial
    · exact i1
  | .unot u l, e', h, w => by
    simp only [propT] at h
    obtain ⟨l', h1, h⟩ := pbind_ok h
    have i1 := propT_noSlice hC _ _ h1 w
    cases h
    unfold foldUnot
    split
    · trivial
    · exact i1
  | .uneg u l, e', h, w => by
    simp only [propT] at h
    obtain ⟨l', h1, h⟩ := pbind_ok h
    have i1 := propT_noSlice hC _ _ h1 w
    cases h
    unfold foldUneg
    split
    · trivial
    · exact i1
  | .upos u l, e', h, w => by
    simp only [propT] at h
    obtain ⟨l', h1, h⟩ := pbind_ok h
    have i1 := propT_noSlice hC _ _ h1 w
    cases h
    unfold foldUpos
    split
    · trivial
    · exact i1
  | .bnot l, e', h, w => by
    simp only [propT] at h
    obtain ⟨l', h1, h⟩ := pbind_ok h
    have i1 := propT_noSlice hC _ _ h1 w
    cases h
    unfold foldNot
    split
    · trivial
    · exact i1
  | .fbin op l r, e', h, w => by
    simp only [propT] at h
    obtain ⟨l', h1, h⟩ := pbind_ok h
    obtain ⟨r', h2, h⟩ := pbind_ok h
    have i1 := propT_noSlice hC _ _ h1 w.1
    have i2 := propT_noSlice hC _ _ h2 w.2
    exact foldF_noSlice i1 i2 h
  | .fubin op l r, e', h, w => by
    simp only [propT] at h
    obtain ⟨l', h1, h⟩ := pbind_ok h
    obtain ⟨r', h2, h⟩ := pbind_ok h
    have i1 := propT_noSlice hC _ _ h1 w.1
    have i2 := propT_noSlice hC _ _ h2 w.2
    exact foldFU_noSlice i1 i2 h
  | .ubin u op l r, e', h, w => by
    simp only [propT] at h
    obtain ⟨l', h1, h⟩ := pbind_ok h
    obtain ⟨r', h2, h⟩ := pbind_ok h
    have i1 := propT_noSlice hC _ _ h1 w.1
    have i2 := propT_noSlice hC _ _ h2 w.2
    exact foldU_noSlice i1 i2 h
  | .bbin op l r, e', h, w => by
    simp only [propT] at h
    obtain ⟨l', h1, h⟩ := pbind_ok h
    obtain ⟨r', h2, h⟩ := pbind_ok h
    have i1 := propT_noSlice hC _ _ h1 w.1
    have i2 := propT_noSlice hC _ _ h2 w.2
    cases h
    exact foldB_noSlice i1 i2
  | .fcmp op l r, e', h, w => by
    simp only [propT] at h
    obtain ⟨l', h1, h⟩ := pbind_ok h
    obtain ⟨r', h2, h⟩ := pbind_ok h
    have i1 := propT_noSlice hC _ _ h1 w.1
    have i2 := propT_noSlice hC _ _ h2 w.2
    cases h
    unfold foldFcmp
    split
    · trivial
    · exact ⟨i1, i2⟩
  | .ucmp op l r, e', h, w => by
    simp only [propT] at h
    obtain ⟨l', h1, h⟩ := pbind_ok h
    obtain ⟨r', h2, h⟩ := pbind_ok h
    have i1 := propT_noSlice hC _ _ h1 w.1
    have i2 := propT_noSlice hC _ _ h2 w.2
    cases h
    unfold foldUcmp
    split
    · trivial
    · exact ⟨i1, i2⟩
  | .eq l r, e', h, w => by
    simp only [propT] at h
    obtain ⟨l', h1, h⟩ := pbind_ok h
    obtain ⟨r', h2, h⟩ := pbind_ok h
    have i1 := propT_noSlice hC _ _ h1 w.1
    have i2 := propT_noSlice hC _ _ h2 w.2
    exact foldEq_noSlice i1 i2 h
  | .cond t c a b, e', h, w => by
    simp only [propT] at h
    obtain ⟨c', h1, h⟩ := pbind_ok h
    have i1 := propT_noSlice hC _ _ h1 w.1
    split at h
    · exact propT_noSlice hC _ _ h w.2.1
    · exact propT_noSlice hC _ _ h w.2.2
    · obtain ⟨a', h2, h⟩ := pbind_ok h
      obtain ⟨b', h3, h⟩ := pbind_ok h
      have i2 := propT_noSlice hC _ _ h2 w.2.1
      have i3 := propT_noSlice hC _ _ h3 w.2.2
      cases h
      unfold foldCond
      split
      · exact i2
      · exact ⟨i1, i2, i3⟩
  | .select t a i, e', h, w => by
    simp only [propT] at h
    obtain ⟨i', h1, h⟩ := pbind_ok h
    have i1 := propT_noSlice hC _ _ h1 w.2
    split at h
    · cases h
    · split at h
      · rename_i c hc
        exact selectConst_noSlice (canon_noSlice (hC _ _ hc).canon) h
      · cases h; exact ⟨trivial, i1⟩
    · obtain ⟨a', h2, h⟩ := pbind_ok h
      exact foldSelect_noSlice (propT_noSlice hC _ _ h2 w.1) i1 h
  | .member t s m, e', h, w => by
    simp only [propT] at h
    obtain ⟨s', h1, h⟩ := pbind_ok h
    exact foldMember_noSlice (propT_noSlice hC _ _ h1 w) h
  | .element t s m, e', h, w => by
    simp only [propT] at h
    obtain ⟨s', h1, h⟩ := pbind_ok h
    exact foldElement_noSlice (propT_noSlice hC _ _ h1 w) h
  | .array t n es, e', h, w => by
    simp only [propT] at h
    obtain ⟨s', h1, h⟩ := pbind_ok h
    have i1 := propS_noSlice hC _ _ h1 w
    cases h
    exact simplifyS_noSlice i1
  | .repeat_ t n a c, e', h, w => by
    simp only [propT] at h
    obtain ⟨l', h1, h⟩ := pbind_ok h
    obtain ⟨r', h2, h⟩ := pbind_ok h
    cases h
    exact ⟨propT_noSlice hC _ _ h1 w.1, propT_noSlice hC _ _ h2 w.2⟩
  | .struct ms es, e', h, w => by
    simp only [propT] at h
    obtain ⟨s', h1, h⟩ := pbind_ok h
    have i1 := propL_noSlice hC _ _ h1 w
    split at h
    · cases h; exact i1
    · cases h
  | .tuple ms es, e', h, w => by
    simp only [propT] at h
    obtain ⟨s', h1, h⟩ := pbind_ok h
    have i1 := propL_noSlice hC _ _ h1 w
    split at h
    · cases h; exact i1
    · cases h
theorem propL_noSlice {C : Consts (ZMod p)} (hC : GoodC C) : ∀ (e e' : List (TExpr (ZMod p))), propL C e = .ok e' → NoSliceL e → NoSliceL e'
  | [], e', h, w => by simp only [propL] at h; cases h; trivial
  | e :: es, e', h, w => by
    simp only [propL] at h
    obtain ⟨l', h1, h⟩ := pbind_ok h
    obtain ⟨r', h2, h⟩ := pbind_ok h
    cases h
    exact ⟨propT_noSlice hC _ _ h1 w.1, propL_noSlice hC _ _ h2 w.2⟩
theorem propS_noSlice {C : Consts (ZMod p)} (hC : GoodC C) : ∀ (e e' : List (TSpread (ZMod p))), propS C e = .ok e' → NoSliceS e → NoSliceS e'
  | [], e', h, w => by simp only [propS] at h; cases h; trivial
  | .expr e :: es, e', h, w => by
    simp only [propS] at h
    obtain ⟨l', h1, h⟩ := pbind_ok h
    obtain ⟨r', h2, h⟩ := pbind_ok h
    cases h
    exact ⟨propT_noSlice hC _ _ h1 w.1, propS_noSlice hC _ _ h2 w.2⟩
  | .spread e :: es, e', h, w => by
    simp only [propS] at h
    obtain ⟨l', h1, h⟩ := pbind_ok h
    obtain ⟨r', h2, h⟩ := pbind_ok h
    cases h
    exact ⟨propT_noSlice hC _ _ h1 w.1, propS_noSlice hC _ _ h2 w.2⟩
end

end Zok.Typed
