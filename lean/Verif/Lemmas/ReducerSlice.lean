import Verif.Lemmas.ReducerExpr

/-
The reducer: the fold of slices keeps types and values, if their variables are current.
-/

set_option linter.unusedSectionVars false
set_option linter.unusedSimpArgs false

namespace Zok.Typed
open Abi
variable {p : ℕ} [Fact p.Prime]

theorem rbind_ok {α β : Type} {x : Except RErr α} {f : α → Except RErr β} {v : β} (h : x.bind f = .ok v) : ∃ a, x = .ok a ∧ f a = .ok v := by
  cases x with
  | error => cases h
  | ok a => exact ⟨a, rfl, h⟩

theorem liftP_ok {α : Type} {x : Except PErr α} {v : α} (h : liftP x = .ok v) : x = .ok v := by
  cases x with
  | error => cases h
  | ok a => simp only [liftP] at h; cases h; rfl

/-! ### Without slices nothing changes -/

mutual
theorem sliceT_id {F : Type} {rec : TExpr F → Except RErr (TExpr F)} : ∀ (e e' : TExpr F), sliceT rec e = .ok e' → e.NoSlice → e' = e
  | .fval _, e', h, w | .bval _, e', h, w | .uval _ _, e', h, w | .removed _, e', h, w | .ident _ _, e', h, w => by simp only [sliceT] at h; cases h; rfl
  | .fneg l, e', h, w => by
    simp only [sliceT] at h
    obtain ⟨l', h1, h⟩ := rbind_ok h
    cases h
    rw [sliceT_id _ _ h1 w]
  | .fpos l, e', h, w => by
    simp only [sliceT] at h
    obtain ⟨l', h1, h⟩ := rbind_ok h
    cases h
    rw [sliceT_id _ _ h1 w]
  | .unot u l, e', h, w => by
    simp only [sliceT] at h
    obtain ⟨l', h1, h⟩ := rbind_ok h
    cases h
    rw [sliceT_id _ _ h1 w]
  | .uneg u l, e', h, w => by
    simp only [sliceT] at h
    obtain ⟨l', h1, h⟩ := rbind_ok h
    cases h
    rw [sliceT_id _ _ h1 w]
  | .upos u l, e', h, w => by
    simp only [sliceT] at h
    obtain ⟨l', h1, h⟩ := rbind_ok h
    cases h
    rw [sliceT_id _ _ h1 w]
  | .bnot l, e', h, w => by
    simp only [sliceT] at h
    obtain ⟨l', h1, h⟩ := rbind_ok h
    cases h
    rw [sliceT_id _ _ h1 w]
  | .member t l m, e', h, w => by
    simp only [sliceT] at h
    obtain ⟨l', h1, h⟩ := rbind_ok h
    cases h
    rw [sliceT_id _ _ h1 w]
  | .element t l m, e', h, w => by
    simp only [sliceT] at h
    obtain ⟨l', h1, h⟩ := rbind_ok h
    cases h
    rw [sliceT_id _ _ h1 w]
  | .fbin op l r, e', h, w => by
    simp only [sliceT] at h
    obtain ⟨l', h1, h⟩ := rbind_ok h
    obtain ⟨r', h2, h⟩ := rbind_ok h
    cases h
    rw [sliceT_id _ _ h1 w.1, sliceT_id _ _ h2 w.2]
  | .fubin op l r, e', h, w => by
    simp only [sliceT] at h
    obtain ⟨l', h1, h⟩ := rbind_ok h
    obtain ⟨r', h2, h⟩ := rbind_ok h
    cases h
    rw [sliceT_id _ _ h1 w.1, sliceT_id _ _ h2 w.2]
  | .ubin u op l r, e', h, w => by
    simp only [sliceT] at h
    obtain ⟨l', h1, h⟩ := rbind_ok h
    obtain ⟨r', h2, h⟩ := rbind_ok h
    cases h
    rw [sliceT_id _ _ h1 w.1, sliceT_id _ _ h2 w.2]
  | .bbin op l r, e', h, w => by
    simp only [sliceT] at h
    obtain ⟨l', h1, h⟩ := rbind_ok h
    obtain ⟨r', h2, h⟩ := rbind_ok h
    cases h
    rw [sliceT_id _ _ h1 w.1, sliceT_id _ _ h2 w.2]
  | .fcmp op l r, e', h, w => by
    simp only [sliceT] at h
    obtain ⟨l', h1, h⟩ := rbind_ok h
    obtain ⟨r', h2, h⟩ := rbind_ok h
    cases h
    rw [sliceT_id _ _ h1 w.1, sliceT_id _ _ h2 w.2]
  | .ucmp op l r, e', h, w => by
    simp only [sliceT] at h
    obtain ⟨l', h1, h⟩ := rbind_ok h
    obtain ⟨r', h2, h⟩ := rbind_ok h
    cases h
    rw [sliceT_id _ _ h1 w.1, sliceT_id _ _ h2 w.2]
  | .eq l r, e', h, w => by
    simp only [sliceT] at h
    obtain ⟨l', h1, h⟩ := rbind_ok h
    obtain ⟨r', h2, h⟩ := rbind_ok h
    cases h
    rw [sliceT_id _ _ h1 w.1, sliceT_id _ _ h2 w.2]
  | .select t l r, e', h, w => by
    simp only [sliceT] at h
    obtain ⟨l', h1, h⟩ := rbind_ok h
    obtain ⟨r', h2, h⟩ := rbind_ok h
    cases h
    rw [sliceT_id _ _ h1 w.1, sliceT_id _ _ h2 w.2]
  | .repeat_ t n l r, e', h, w => by
    simp only [sliceT] at h
    obtain ⟨l', h1, h⟩ := rbind_ok h
    obtain ⟨r', h2, h⟩ := rbind_ok h
    cases h
    rw [sliceT_id _ _ h1 w.1, sliceT_id _ _ h2 w.2]
  | .cond t c a b, e', h, w => by
    simp only [sliceT] at h
    obtain ⟨c', h1, h⟩ := rbind_ok h
    obtain ⟨l', h2, h⟩ := rbind_ok h
    obtain ⟨r', h3, h⟩ := rbind_ok h
    cases h
    rw [sliceT_id _ _ h1 w.1, sliceT_id _ _ h2 w.2.1, sliceT_id _ _ h3 w.2.2]
  | .array t n es, e', h, w => by
    simp only [sliceT] at h
    obtain ⟨l', h1, h⟩ := rbind_ok h
    cases h
    rw [sliceS_id _ _ h1 w]
  | .struct t es, e', h, w => by
    simp only [sliceT] at h
    obtain ⟨l', h1, h⟩ := rbind_ok h
    cases h
    rw [sliceL_id _ _ h1 w]
  | .tuple t es, e', h, w => by
    simp only [sliceT] at h
    obtain ⟨l', h1, h⟩ := rbind_ok h
    cases h
    rw [sliceL_id _ _ h1 w]
theorem sliceL_id {F : Type} {rec : TExpr F → Except RErr (TExpr F)} : ∀ (e e' : List (TExpr F)), sliceL rec e = .ok e' → NoSliceL e → e' = e
  | [], e', h, w => by simp only [sliceL] at h; cases h; rfl
  | e :: es, e', h, w => by
    simp only [sliceL] at h
    obtain ⟨l', h1, h⟩ := rbind_ok h
    obtain ⟨r', h2, h⟩ := rbind_ok h
    cases h
    rw [sliceT_id _ _ h1 w.1, sliceL_id _ _ h2 w.2]
theorem sliceS_id {F : Type} {rec : TExpr F → Except RErr (TExpr F)} : ∀ (e e' : List (TSpread F)), sliceS rec e = .ok e' → NoSliceS e → e' = e
  | [], e', h, w => by simp only [sliceS] at h; cases h; rfl
  | .expr e :: es, e', h, w => by
    simp only [sliceS] at h
    obtain ⟨l', h1, h⟩ := rbind_ok h
    obtain ⟨r', h2, h⟩ := rbind_ok h
    cases h
    rw [sliceT_id _ _ h1 w.1, sliceS_id _ _ h2 w.2]
  | .spread e :: es, e', h, w => by
    simp only [sliceS] at h
    obtain ⟨l', h1, h⟩ := rbind_ok h
    obtain ⟨r', h2, h⟩ := rbind_ok h
    cases h
    rw [sliceT_id _ _ h1 w.1, sliceS_id _ _ h2 w.2]
end

/-! ### Types and values -/

/-- `e'` has the type of `e` and its value, whenever the constants have their values. -/
structure KeepE (C : Consts (ZMod p)) (e e' : TExpr (ZMod p)) : Prop where
  typ : Typ e' e.ty e.vars
  val : ∀ env v, EnvRel C env env → evalT env e = .ok v → evalT env e' = .ok v

/-- For expressions whose outermost operator is kept. -/
structure KeepN (C : Consts (ZMod p)) (e e' : TExpr (ZMod p)) : Prop extends KeepE C e e' where
  con : e'.isConst = e.isConst
  uval : ∀ w n, e' = .uval w n ↔ e = .uval w n

/-- What is needed of the fold of the parts of slices. -/
structure PartOk (C : Consts (ZMod p)) (Q : TId → Prop) (rec : TExpr (ZMod p) → Except RErr (TExpr (ZMod p))) : Prop where
  keep : ∀ e e', rec e = .ok e' → e.Wt → (∀ x ∈ e.vars, Q x) → KeepE C e e'
  uval : ∀ w n e', rec (.uval w n) = .ok e' → e' = .uval w n

theorem isConst_fubin {F : Type} {op : FUOp} {l r l' r' : TExpr F} (h : ∀ w n, r' = .uval w n ↔ r = .uval w n) : (TExpr.fubin op l' r').isConst = (TExpr.fubin op l r).isConst := by
  rw [Bool.eq_iff_iff]
  cases op with
  | pow =>
    have hc : ∀ l r : TExpr F, (TExpr.fubin .pow l r).isConst = true ↔ ∃ w, r = .uval w 0 := fun l r => by
      constructor
      · intro hi
        unfold TExpr.isConst at hi
        split at hi
        · rename_i heq; cases heq
        · rename_i heq; cases heq; exact ⟨_, rfl⟩
        · cases hi
      · rintro ⟨w, rfl⟩; rfl
    rw [hc, hc]
    exact exists_congr fun w => h w 0
  | _ => simp [TExpr.isConst]

variable {C : Consts (ZMod p)} {Q : TId → Prop} {rec : TExpr (ZMod p) → Except RErr (TExpr (ZMod p))}

theorem keepN_refl (e : TExpr (ZMod p)) (w : e.Wt) : KeepN C e e := ⟨⟨⟨rfl, w, fun _ h => h⟩, fun _ _ _ h => h⟩, rfl, fun _ _ => Iff.rfl⟩

mutual
theorem sliceT_keep (hp : PartOk C Q rec) : ∀ (e e' : TExpr (ZMod p)), sliceT rec e = .ok e' → e.Wt → (∀ x ∈ e.vars, Q x) → KeepN C e e'
  | .fval _, e', h, w, hv | .bval _, e', h, w, hv | .uval _ _, e', h, w, hv | .removed _, e', h, w, hv | .ident _ _, e', h, w, hv => by simp only [sliceT] at h; cases h; exact keepN_refl _ w
  | .fneg l, e', h, w, hv => by
    simp only [sliceT] at h
    obtain ⟨l', h1, h⟩ := rbind_ok h
    cases h
    simp only [TExpr.vars] at hv
    have i1 := sliceT_keep hp _ _ h1 w.2 hv
    refine ⟨⟨⟨rfl, ⟨by rw [i1.typ.1, w.1], i1.typ.2.1⟩, by simp only [TExpr.vars]; exact i1.typ.2.2⟩, fun env v hR he => ?_⟩, rfl, fun _ _ => ⟨nofun, nofun⟩⟩
    obtain ⟨a, g1, g2⟩ := fneg_ok he
    exact g2 _ _ (i1.val env _ hR g1)
  | .fpos l, e', h, w, hv => by
    simp only [sliceT] at h
    obtain ⟨l', h1, h⟩ := rbind_ok h
    cases h
    simp only [TExpr.vars] at hv
    have i1 := sliceT_keep hp _ _ h1 w.2 hv
    refine ⟨⟨⟨rfl, ⟨by rw [i1.typ.1, w.1], i1.typ.2.1⟩, by simp only [TExpr.vars]; exact i1.typ.2.2⟩, fun env v hR he => ?_⟩, rfl, fun _ _ => ⟨nofun, nofun⟩⟩
    obtain ⟨a, g1, g2⟩ := fpos_ok he
    exact g2 _ _ (i1.val env _ hR g1)
  | .unot u l, e', h, w, hv => by
    simp only [sliceT] at h
    obtain ⟨l', h1, h⟩ := rbind_ok h
    cases h
    simp only [TExpr.vars] at hv
    have i1 := sliceT_keep hp _ _ h1 w.2 hv
    refine ⟨⟨⟨rfl, ⟨by rw [i1.typ.1, w.1], i1.typ.2.1⟩, by simp only [TExpr.vars]; exact i1.typ.2.2⟩, fun env v hR he => ?_⟩, rfl, fun _ _ => ⟨nofun, nofun⟩⟩
    obtain ⟨a, g1, g2⟩ := unot_ok he
    exact g2 _ _ (i1.val env _ hR g1)
  | .uneg u l, e', h, w, hv => by
    simp only [sliceT] at h
    obtain ⟨l', h1, h⟩ := rbind_ok h
    cases h
    simp only [TExpr.vars] at hv
    have i1 := sliceT_keep hp _ _ h1 w.2 hv
    refine ⟨⟨⟨rfl, ⟨by rw [i1.typ.1, w.1], i1.typ.2.1⟩, by simp only [TExpr.vars]; exact i1.typ.2.2⟩, fun env v hR he => ?_⟩, rfl, fun _ _ => ⟨nofun, nofun⟩⟩
    obtain ⟨a, g1, g2⟩ := uneg_ok he
    exact g2 _ _ (i1.val env _ hR g1)
  | .upos u l, e', h, w, hv => by
    simp only [sliceT] at h
    obtain ⟨l', h1, h⟩ := rbind_ok h
    cases h
    simp only [TExpr.vars] at hv
    have i1 := sliceT_keep hp _ _ h1 w.2 hv
    refine ⟨⟨⟨rfl, ⟨by rw [i1.typ.1, w.1], i1.typ.2.1⟩, by simp only [TExpr.vars]; exact i1.typ.2.2⟩, fun env v hR he => ?_⟩, rfl, fun _ _ => ⟨nofun, nofun⟩⟩
    obtain ⟨a, g1, g2⟩ := upos_ok he
    exact g2 _ _ (i1.val env _ hR g1)
  | .bnot l, e', h, w, hv => by
    simp only [sliceT] at h
    obtain ⟨l', h1, h⟩ := rbind_ok h
    cases h
    simp only [TExpr.vars] at hv
    have i1 := sliceT_keep hp _ _ h1 w.2 hv
    refine ⟨⟨⟨rfl, ⟨by rw [i1.typ.1, w.1], i1.typ.2.1⟩, by simp only [TExpr.vars]; exact i1.typ.2.2⟩, fun env v hR he => ?_⟩, rfl, fun _ _ => ⟨nofun, nofun⟩⟩
    obtain ⟨a, g1, g2⟩ := bnot_ok he
    exact g2 _ _ (i1.val env _ hR g1)
  | .member t l m, e', h, w, hv => by
    simp only [sliceT] at h
    obtain ⟨l', h1, h⟩ := rbind_ok h
    cases h
    simp only [TExpr.vars] at hv
    have i1 := sliceT_keep hp _ _ h1 w.2 hv
    refine ⟨⟨⟨rfl, ⟨by rw [i1.typ.1]; exact w.1, i1.typ.2.1⟩, by simp only [TExpr.vars]; exact i1.typ.2.2⟩, fun env v hR he => ?_⟩, rfl, fun _ _ => ⟨nofun, nofun⟩⟩
    obtain ⟨a, g1, g2⟩ := member_ok he
    exact g2 _ _ (i1.val env _ hR g1)
  | .element t l m, e', h, w, hv => by
    simp only [sliceT] at h
    obtain ⟨l', h1, h⟩ := rbind_ok h
    cases h
    simp only [TExpr.vars] at hv
    have i1 := sliceT_keep hp _ _ h1 w.2 hv
    refine ⟨⟨⟨rfl, ⟨by rw [i1.typ.1]; exact w.1, i1.typ.2.1⟩, by simp only [TExpr.vars]; exact i1.typ.2.2⟩, fun env v hR he => ?_⟩, rfl, fun _ _ => ⟨nofun, nofun⟩⟩
    obtain ⟨a, g1, g2⟩ := element_ok he
    exact g2 _ _ (i1.val env _ hR g1)
  | .fbin op l r, e', h, w, hv => by
    simp only [sliceT] at h
    obtain ⟨l', h1, h⟩ := rbind_ok h
    obtain ⟨r', h2, h⟩ := rbind_ok h
    cases h
    simp only [TExpr.vars, List.mem_append] at hv
    have i1 := sliceT_keep hp _ _ h1 w.2.2.1 fun x hx => hv x (.inl hx)
    have i2 := sliceT_keep hp _ _ h2 w.2.2.2 fun x hx => hv x (.inr hx)
    refine ⟨⟨⟨rfl, ⟨by rw [i1.typ.1, w.1], by rw [i2.typ.1, w.2.1], i1.typ.2.1, i2.typ.2.1⟩, by simp only [TExpr.vars]; exact typ_sub i1.typ.2.2 i2.typ.2.2⟩, fun env v hR he => ?_⟩, rfl, fun _ _ => ⟨nofun, nofun⟩⟩
    obtain ⟨a, b, g1, g2, g3⟩ := fbin_ok he
    exact g3 _ _ _ (i1.val env _ hR g1) (i2.val env _ hR g2)
  | .fubin op l r, e', h, w, hv => by
    simp only [sliceT] at h
    obtain ⟨l', h1, h⟩ := rbind_ok h
    obtain ⟨r', h2, h⟩ := rbind_ok h
    cases h
    simp only [TExpr.vars, List.mem_append] at hv
    have i1 := sliceT_keep hp _ _ h1 w.2.2.1 fun x hx => hv x (.inl hx)
    have i2 := sliceT_keep hp _ _ h2 w.2.2.2 fun x hx => hv x (.inr hx)
    refine ⟨⟨⟨rfl, ⟨by rw [i1.typ.1, w.1], by rw [i2.typ.1, w.2.1], i1.typ.2.1, i2.typ.2.1⟩, by simp only [TExpr.vars]; exact typ_sub i1.typ.2.2 i2.typ.2.2⟩, fun env v hR he => ?_⟩, isConst_fubin i2.uval, fun _ _ => ⟨nofun, nofun⟩⟩
    obtain ⟨a, b, g1, g2, g3⟩ := fubin_ok he
    exact g3 _ _ _ (i1.val env _ hR g1) (i2.val env _ hR g2)
  | .ubin u op l r, e', h, w, hv => by
    simp only [sliceT] at h
    obtain ⟨l', h1, h⟩ := rbind_ok h
    obtain ⟨r', h2, h⟩ := rbind_ok h
    cases h
    simp only [TExpr.vars, List.mem_append] at hv
    have i1 := sliceT_keep hp _ _ h1 w.2.2.1 fun x hx => hv x (.inl hx)
    have i2 := sliceT_keep hp _ _ h2 w.2.2.2 fun x hx => hv x (.inr hx)
    refine ⟨⟨⟨rfl, ⟨by rw [i1.typ.1, w.1], by rw [i2.typ.1, w.2.1], i1.typ.2.1, i2.typ.2.1⟩, by simp only [TExpr.vars]; exact typ_sub i1.typ.2.2 i2.typ.2.2⟩, fun env v hR he => ?_⟩, rfl, fun _ _ => ⟨nofun, nofun⟩⟩
    obtain ⟨a, b, g1, g2, g3⟩ := ubin_ok he
    exact g3 _ _ _ (i1.val env _ hR g1) (i2.val env _ hR g2)
  | .bbin op l r, e', h, w, hv => by
    simp only [sliceT] at h
    obtain ⟨l', h1, h⟩ := rbind_ok h
    obtain ⟨r', h2, h⟩ := rbind_ok h
    cases h
    simp only [TExpr.vars, List.mem_append] at hv
    have i1 := sliceT_keep hp _ _ h1 w.2.2.1 fun x hx => hv x (.inl hx)
    have i2 := sliceT_keep hp _ _ h2 w.2.2.2 fun x hx => hv x (.inr hx)
    refine ⟨⟨⟨rfl, ⟨by rw [i1.typ.1, w.1], by rw [i2.typ.1, w.2.1], i1.typ.2.1, i2.typ.2.1⟩, by simp only [TExpr.vars]; exact typ_sub i1.typ.2.2 i2.typ.2.2⟩, fun env v hR he => ?_⟩, rfl, fun _ _ => ⟨nofun, nofun⟩⟩
    obtain ⟨a, b, g1, g2, g3⟩ := bbin_ok he
    exact g3 _ _ _ (i1.val env _ hR g1) (i2.val env _ hR g2)
  | .fcmp op l r, e', h, w, hv => by
    simp only [sliceT] at h
    obtain ⟨l', h1, h⟩ := rbind_ok h
    obtain ⟨r', h2, h⟩ := rbind_ok h
    cases h
    simp only [TExpr.vars, List.mem_append] at hv
    have i1 := sliceT_keep hp _ _ h1 w.2.2.1 fun x hx => hv x (.inl hx)
    have i2 := sliceT_keep hp _ _ h2 w.2.2.2 fun x hx => hv x (.inr hx)
    refine ⟨⟨⟨rfl, ⟨by rw [i1.typ.1, w.1], by rw [i2.typ.1, w.2.1], i1.typ.2.1, i2.typ.2.1⟩, by simp only [TExpr.vars]; exact typ_sub i1.typ.2.2 i2.typ.2.2⟩, fun env v hR he => ?_⟩, rfl, fun _ _ => ⟨nofun, nofun⟩⟩
    obtain ⟨a, b, g1, g2, g3⟩ := fcmp_ok he
    exact g3 _ _ _ (by rw [i1.con, i2.con]) (i1.val env _ hR g1) (i2.val env _ hR g2)
  | .ucmp op l r, e', h, w, hv => by
    simp only [sliceT] at h
    obtain ⟨l', h1, h⟩ := rbind_ok h
    obtain ⟨r', h2, h⟩ := rbind_ok h
    cases h
    simp only [TExpr.vars, List.mem_append] at hv
    have i1 := sliceT_keep hp _ _ h1 w.2.1 fun x hx => hv x (.inl hx)
    have i2 := sliceT_keep hp _ _ h2 w.2.2 fun x hx => hv x (.inr hx)
    refine ⟨⟨⟨rfl, ⟨by rw [i1.typ.1, i2.typ.1]; exact w.1, i1.typ.2.1, i2.typ.2.1⟩, by simp only [TExpr.vars]; exact typ_sub i1.typ.2.2 i2.typ.2.2⟩, fun env v hR he => ?_⟩, rfl, fun _ _ => ⟨nofun, nofun⟩⟩
    obtain ⟨a, b, g1, g2, g3⟩ := ucmp_ok he
    exact g3 _ _ _ i1.typ.1 (i1.val env _ hR g1) (i2.val env _ hR g2)
  | .eq l r, e', h, w, hv => by
    simp only [sliceT] at h
    obtain ⟨l', h1, h⟩ := rbind_ok h
    obtain ⟨r', h2, h⟩ := rbind_ok h
    cases h
    simp only [TExpr.vars, List.mem_append] at hv
    have i1 := sliceT_keep hp _ _ h1 w.2.2.1 fun x hx => hv x (.inl hx)
    have i2 := sliceT_keep hp _ _ h2 w.2.2.2 fun x hx => hv x (.inr hx)
    refine ⟨⟨⟨rfl, ⟨by rw [i1.typ.1, i2.typ.1, w.1], by rw [i1.typ.1]; exact w.2.1, i1.typ.2.1, i2.typ.2.1⟩, by simp only [TExpr.vars]; exact typ_sub i1.typ.2.2 i2.typ.2.2⟩, fun env v hR he => ?_⟩, rfl, fun _ _ => ⟨nofun, nofun⟩⟩
    obtain ⟨a, b, g1, g2, g3⟩ := eq_ok he
    exact g3 _ _ _ (i1.val env _ hR g1) (i2.val env _ hR g2)
  | .select t l r, e', h, w, hv => by
    simp only [sliceT] at h
    obtain ⟨l', h1, h⟩ := rbind_ok h
    obtain ⟨r', h2, h⟩ := rbind_ok h
    cases h
    simp only [TExpr.vars, List.mem_append] at hv
    have i1 := sliceT_keep hp _ _ h1 w.2.2.1 fun x hx => hv x (.inl hx)
    have i2 := sliceT_keep hp _ _ h2 w.2.2.2 fun x hx => hv x (.inr hx)
    refine ⟨⟨⟨rfl, ⟨by rw [i1.typ.1]; exact w.1, by rw [i2.typ.1, w.2.1], i1.typ.2.1, i2.typ.2.1⟩, by simp only [TExpr.vars]; exact typ_sub i1.typ.2.2 i2.typ.2.2⟩, fun env v hR he => ?_⟩, rfl, fun _ _ => ⟨nofun, nofun⟩⟩
    obtain ⟨a, b, g1, g2, g3⟩ := select_ok he
    exact g3 _ _ _ (i1.val env _ hR g1) (i2.val env _ hR g2)
  | .repeat_ t n l r, e', h, w, hv => by
    simp only [sliceT] at h
    obtain ⟨l', h1, h⟩ := rbind_ok h
    obtain ⟨r', h2, h⟩ := rbind_ok h
    cases h
    simp only [TExpr.vars, List.mem_append] at hv
    have i1 := sliceT_keep hp _ _ h1 w.2.2 fun x hx => hv x (.inl hx)
    obtain ⟨⟨w1, w2⟩, rfl, w3⟩ := w
    simp only [sliceT] at h2
    cases h2
    refine ⟨⟨⟨rfl, ⟨⟨w1, by rw [i1.typ.1, w2]⟩, rfl, i1.typ.2.1⟩, by simp only [TExpr.vars]; simpa using i1.typ.2.2⟩, fun env v hR he => ?_⟩, rfl, fun _ _ => ⟨nofun, nofun⟩⟩
    obtain ⟨a, b, g1, g2, g3⟩ := repeat__ok he
    exact g3 _ _ _ (i1.val env _ hR g1) g2
  | .cond t c l r, e', h, w, hv => by
    simp only [sliceT] at h
    obtain ⟨c', h0, h⟩ := rbind_ok h
    obtain ⟨l', h1, h⟩ := rbind_ok h
    obtain ⟨r', h2, h⟩ := rbind_ok h
    cases h
    simp only [TExpr.vars, List.mem_append] at hv
    have i0 := sliceT_keep hp _ _ h0 w.2.2.2.1 fun x hx => hv x (.inl (.inl hx))
    have i1 := sliceT_keep hp _ _ h1 w.2.2.2.2.1 fun x hx => hv x (.inl (.inr hx))
    have i2 := sliceT_keep hp _ _ h2 w.2.2.2.2.2 fun x hx => hv x (.inr hx)
    refine ⟨⟨⟨rfl, ⟨by rw [i0.typ.1, w.1], by rw [i1.typ.1, w.2.1], by rw [i2.typ.1, w.2.2.1], i0.typ.2.1, i1.typ.2.1, i2.typ.2.1⟩, ?_⟩, fun env v hR he => ?_⟩, rfl, fun _ _ => ⟨nofun, nofun⟩⟩
    · intro y hy
      simp only [TExpr.vars, List.mem_append] at hy ⊢
      exact hy.imp (fun h => h.imp (i0.typ.2.2 y) (i1.typ.2.2 y)) (i2.typ.2.2 y)
    · obtain ⟨k, a, b, g0, g1, g2, -, g3⟩ := cond_ok he
      exact g3 _ _ _ _ _ (i0.val env _ hR g0) (i1.val env _ hR g1) (i2.val env _ hR g2)
  | .slice t n l lo hi, e', h, w, hv => by
    obtain ⟨⟨k, a, b, w1, rfl, rfl, w2⟩, w3⟩ := w
    simp only [sliceT] at h
    obtain ⟨l', h0, h⟩ := rbind_ok h
    obtain ⟨lo', h1, h⟩ := rbind_ok h
    obtain ⟨hi', h2, h⟩ := rbind_ok h
    rw [hp.uval _ _ _ h1, hp.uval _ _ _ h2] at h
    simp only [TExpr.vars, List.append_nil] at hv
    have i1 := hp.keep _ _ h0 w3 hv
    simp only [bothLit, TExpr.litU, Option.isSome_some, Bool.and_self, if_true] at h
    cases h
    refine ⟨⟨⟨rfl, ⟨⟨k, a, b, by rw [i1.typ.1, w1], rfl, rfl, w2⟩, i1.typ.2.1⟩, by simp only [TExpr.vars, List.append_nil]; exact i1.typ.2.2⟩, fun env v hR he => ?_⟩, rfl, fun _ _ => ⟨nofun, nofun⟩⟩
    obtain ⟨a, b, c, g1, g2, g3, g4⟩ := slice_ok he
    exact g4 _ _ _ _ (i1.val env _ hR g1) g2 g3
  | .array t n es, e', h, w, hv => by
    simp only [sliceT] at h
    obtain ⟨es', h1, h⟩ := rbind_ok h
    cases h
    simp only [TExpr.vars] at hv
    obtain ⟨i1, i2, i3, i4⟩ := sliceS_keep hp es es' t n h1 w.2.2 w.2.1 hv
    refine ⟨⟨⟨rfl, ⟨w.1, i2, i1⟩, by simp only [TExpr.vars]; exact i3⟩, fun env v hR he => ?_⟩, rfl, fun _ _ => ⟨nofun, nofun⟩⟩
    obtain ⟨vs, g1, -, g2⟩ := array_ok he
    exact g2 _ _ (i4 env _ hR g1)
  | .struct ms es, e', h, w, hv => by
    simp only [sliceT] at h
    obtain ⟨es', h1, h⟩ := rbind_ok h
    cases h
    simp only [TExpr.vars] at hv
    obtain ⟨i1, i2, i3, i4⟩ := sliceL_keep hp es es' h1 w.2.2 hv
    refine ⟨⟨⟨rfl, ⟨w.1, by rw [i1, w.2.1], i2⟩, by simp only [TExpr.vars]; exact i3⟩, fun env v hR he => ?_⟩, rfl, fun _ _ => ⟨nofun, nofun⟩⟩
    obtain ⟨vs, g1, g2⟩ := struct_ok he
    exact g2 _ _ (i4 env _ hR g1)
  | .tuple ts es, e', h, w, hv => by
    simp only [sliceT] at h
    obtain ⟨es', h1, h⟩ := rbind_ok h
    cases h
    simp only [TExpr.vars] at hv
    obtain ⟨i1, i2, i3, i4⟩ := sliceL_keep hp es es' h1 w.2 hv
    refine ⟨⟨⟨rfl, ⟨by rw [i1, w.1], i2⟩, by simp only [TExpr.vars]; exact i3⟩, fun env v hR he => ?_⟩, rfl, fun _ _ => ⟨nofun, nofun⟩⟩
    obtain ⟨vs, g1, g2⟩ := tuple_ok he
    exact g2 _ _ (i4 env _ hR g1)
theorem sliceL_keep (hp : PartOk C Q rec) : ∀ (es es' : List (TExpr (ZMod p))), sliceL rec es = .ok es' → WtL es → (∀ x ∈ varsL es, Q x) →
    es'.map TExpr.ty = es.map TExpr.ty ∧ WtL es' ∧ (∀ y ∈ varsL es', y ∈ varsL es) ∧ ∀ env vs, EnvRel C env env → evalL env es = .ok vs → evalL env es' = .ok vs
  | [], es', h, w, hv => by simp only [sliceL] at h; cases h; exact ⟨rfl, trivial, fun _ h => h, fun _ _ _ h => h⟩
  | e :: es, es', h, w, hv => by
    simp only [sliceL] at h
    obtain ⟨l', h1, h⟩ := rbind_ok h
    obtain ⟨r', h2, h⟩ := rbind_ok h
    cases h
    simp only [varsL, List.mem_append] at hv
    have i1 := sliceT_keep hp _ _ h1 w.1 fun x hx => hv x (.inl hx)
    obtain ⟨j1, j2, j3, j4⟩ := sliceL_keep hp es r' h2 w.2 fun x hx => hv x (.inr hx)
    refine ⟨by simp only [List.map_cons, j1, i1.typ.1], ⟨i1.typ.2.1, j2⟩, ?_, fun env vs hR he => ?_⟩
    · intro y hy
      simp only [varsL, List.mem_append] at hy ⊢
      exact hy.imp (i1.typ.2.2 y) (j3 y)
    · obtain ⟨a, as, g1, g2, -, g3⟩ := cons_ok he
      exact g3 _ _ _ (i1.val env _ hR g1) (j4 env _ hR g2)
theorem sliceS_keep (hp : PartOk C Q rec) : ∀ (es es' : List (TSpread (ZMod p))) (t : CType) (n : ℕ), sliceS rec es = .ok es' → WtS t es → spreadCount t es n →
    (∀ x ∈ varsS es, Q x) → WtS t es' ∧ spreadCount t es' n ∧ (∀ y ∈ varsS es', y ∈ varsS es) ∧ ∀ env vs, EnvRel C env env → evalS env es = .ok vs → evalS env es' = .ok vs
  | [], es', t, n, h, w, hn, hv => by simp only [sliceS] at h; cases h; exact ⟨trivial, hn, fun _ h => h, fun _ _ _ h => h⟩
  | .expr e :: es, es', t, n, h, w, hn, hv => by
    simp only [sliceS] at h
    obtain ⟨l', h1, h⟩ := rbind_ok h
    obtain ⟨r', h2, h⟩ := rbind_ok h
    cases h
    simp only [varsS, List.mem_append] at hv
    obtain ⟨k, rfl, hn⟩ := hn
    have i1 := sliceT_keep hp _ _ h1 w.1.2 fun x hx => hv x (.inl hx)
    obtain ⟨j1, j2, j3, j4⟩ := sliceS_keep hp es r' t k h2 w.2 hn fun x hx => hv x (.inr hx)
    refine ⟨⟨⟨by rw [i1.typ.1, w.1.1], i1.typ.2.1⟩, j1⟩, ⟨k, rfl, j2⟩, ?_, fun env vs hR he => ?_⟩
    · intro y hy
      simp only [varsS, List.mem_append] at hy ⊢
      exact hy.imp (i1.typ.2.2 y) (j3 y)
    · obtain ⟨a, as, g1, g2, -, g3⟩ := expr_ok he
      exact g3 _ _ _ (i1.val env _ hR g1) (j4 env _ hR g2)
  | .spread e :: es, es', t, n, h, w, hn, hv => by
    simp only [sliceS] at h
    obtain ⟨l', h1, h⟩ := rbind_ok h
    obtain ⟨r', h2, h⟩ := rbind_ok h
    cases h
    simp only [varsS, List.mem_append] at hv
    obtain ⟨m, k, ht, rfl, hn⟩ := hn
    have i1 := sliceT_keep hp _ _ h1 w.1 fun x hx => hv x (.inl hx)
    obtain ⟨j1, j2, j3, j4⟩ := sliceS_keep hp es r' t k h2 w.2 hn fun x hx => hv x (.inr hx)
    refine ⟨⟨i1.typ.2.1, j1⟩, ⟨m, k, by rw [i1.typ.1, ht], rfl, j2⟩, ?_, fun env vs hR he => ?_⟩
    · intro y hy
      simp only [varsS, List.mem_append] at hy ⊢
      exact hy.imp (i1.typ.2.2 y) (j3 y)
    · obtain ⟨a, as, g1, g2, -, g3⟩ := spread_ok he
      exact g3 _ _ _ (i1.val env _ hR g1) (j4 env _ hR g2)
end

/-! ### The parts of slices -/

/-- Variables which the conversion to static single assignment form does not change any more. -/
def Cur (V : Vers) (fr : ℕ) (x : TId) : Prop := ssaAgain V fr x = x

mutual
theorem renT_id {F : Type} {r : TId → TId} : ∀ (e : TExpr F), (∀ x ∈ e.vars, r x = x) → e.ren r = e
  | .fval _, _ | .bval _, _ | .uval _ _, _ | .removed _, _ => by simp only [TExpr.ren]
  | .ident x t, h => by simp only [TExpr.ren, h x (by simp [TExpr.vars])]
  | .fneg l, h => by simp only [TExpr.vars] at h; simp only [TExpr.ren, renT_id l h]
  | .fpos l, h => by simp only [TExpr.vars] at h; simp only [TExpr.ren, renT_id l h]
  | .unot u l, h => by simp only [TExpr.vars] at h; simp only [TExpr.ren, renT_id l h]
  | .uneg u l, h => by simp only [TExpr.vars] at h; simp only [TExpr.ren, renT_id l h]
  | .upos u l, h => by simp only [TExpr.vars] at h; simp only [TExpr.ren, renT_id l h]
  | .bnot l, h => by simp only [TExpr.vars] at h; simp only [TExpr.ren, renT_id l h]
  | .member t l m, h => by simp only [TExpr.vars] at h; simp only [TExpr.ren, renT_id l h]
  | .element t l m, h => by simp only [TExpr.vars] at h; simp only [TExpr.ren, renT_id l h]
  | .fbin op l r, h => by
    simp only [TExpr.vars, List.mem_append] at h
    simp only [TExpr.ren, renT_id l fun x hx => h x (.inl hx), renT_id r fun x hx => h x (.inr hx)]
  | .fubin op l r, h => by
    simp only [TExpr.vars, List.mem_append] at h
    simp only [TExpr.ren, renT_id l fun x hx => h x (.inl hx), renT_id r fun x hx => h x (.inr hx)]
  | .ubin u op l r, h => by
    simp only [TExpr.vars, List.mem_append] at h
    simp only [TExpr.ren, renT_id l fun x hx => h x (.inl hx), renT_id r fun x hx => h x (.inr hx)]
  | .bbin op l r, h => by
    simp only [TExpr.vars, List.mem_append] at h
    simp only [TExpr.ren, renT_id l fun x hx => h x (.inl hx), renT_id r fun x hx => h x (.inr hx)]
  | .fcmp op l r, h => by
    simp only [TExpr.vars, List.mem_append] at h
    simp only [TExpr.ren, renT_id l fun x hx => h x (.inl hx), renT_id r fun x hx => h x (.inr hx)]
  | .ucmp op l r, h => by
    simp only [TExpr.vars, List.mem_append] at h
    simp only [TExpr.ren, renT_id l fun x hx => h x (.inl hx), renT_id r fun x hx => h x (.inr hx)]
  | .eq l r, h => by
    simp only [TExpr.vars, List.mem_append] at h
    simp only [TExpr.ren, renT_id l fun x hx => h x (.inl hx), renT_id r fun x hx => h x (.inr hx)]
  | .select t l r, h => by
    simp only [TExpr.vars, List.mem_append] at h
    simp only [TExpr.ren, renT_id l fun x hx => h x (.inl hx), renT_id r fun x hx => h x (.inr hx)]
  | .repeat_ t n l r, h => by
    simp only [TExpr.vars, List.mem_append] at h
    simp only [TExpr.ren, renT_id l fun x hx => h x (.inl hx), renT_id r fun x hx => h x (.inr hx)]
  | .cond t c l r, h => by
    simp only [TExpr.vars, List.mem_append] at h
    simp only [TExpr.ren, renT_id c fun x hx => h x (.inl (.inl hx)), renT_id l fun x hx => h x (.inl (.inr hx)), renT_id r fun x hx => h x (.inr hx)]
  | .slice t n c l r, h => by
    simp only [TExpr.vars, List.mem_append] at h
    simp only [TExpr.ren, renT_id c fun x hx => h x (.inl (.inl hx)), renT_id l fun x hx => h x (.inl (.inr hx)), renT_id r fun x hx => h x (.inr hx)]
  | .array t n es, h => by simp only [TExpr.vars] at h; simp only [TExpr.ren, renS_id es h]
  | .struct t es, h => by simp only [TExpr.vars] at h; simp only [TExpr.ren, renL_id es h]
  | .tuple t es, h => by simp only [TExpr.vars] at h; simp only [TExpr.ren, renL_id es h]
theorem renL_id {F : Type} {r : TId → TId} : ∀ (e : List (TExpr F)), (∀ x ∈ varsL e, r x = x) → renL r e = e
  | [], h => by simp only [renL]
  | e :: es, h => by
    simp only [varsL, List.mem_append] at h
    simp only [renL, renT_id e fun x hx => h x (.inl hx), renL_id es fun x hx => h x (.inr hx)]
theorem renS_id {F : Type} {r : TId → TId} : ∀ (e : List (TSpread F)), (∀ x ∈ varsS e, r x = x) → renS r e = e
  | [], h => by simp only [renS]
  | .expr e :: es, h => by
    simp only [varsS, List.mem_append] at h
    simp only [renS, renT_id e fun x hx => h x (.inl hx), renS_id es fun x hx => h x (.inr hx)]
  | .spread e :: es, h => by
    simp only [varsS, List.mem_append] at h
    simp only [renS, renT_id e fun x hx => h x (.inl hx), renS_id es fun x hx => h x (.inr hx)]
end

theorem partF_ok (hC : GoodC C) (V : Vers) (fr : ℕ) : ∀ k, PartOk C (Cur V fr) (partF V fr C k)
  | 0 => ⟨fun _ _ h => by (simp only [partF] at h; cases h), fun _ _ _ h => by (simp only [partF] at h; cases h)⟩
  | k + 1 => by
    have ih := partF_ok hC V fr k
    refine ⟨fun e e' h w hv => ?_, fun w n e' h => ?_⟩
    · simp only [partF] at h
      obtain ⟨e1, h1, h⟩ := rbind_ok h
      obtain ⟨e2, h2, h⟩ := rbind_ok h
      rw [renT_id e hv] at h1
      have h1 := liftP_ok h1
      have h3 := liftP_ok h
      have t1 := propT_typed hC _ _ h1 w
      have i2 := sliceT_keep ih _ _ h2 t1.2.1 fun x hx => hv x (t1.2.2 x hx)
      have t3 := propT_typed hC _ _ h3 i2.typ.2.1
      refine ⟨⟨by rw [t3.1, i2.typ.1, t1.1], t3.2.1, fun y hy => t1.2.2 y (i2.typ.2.2 y (t3.2.2 y hy))⟩, fun env v hR he => ?_⟩
      exact propT_eval hC hR i2.typ.2.1 h3 (i2.val env v hR (propT_eval hC hR w h1 he))
    · simp only [partF, TExpr.ren, propT, liftP] at h
      obtain ⟨e1, h1, h⟩ := rbind_ok h
      cases h1
      obtain ⟨e2, h2, h⟩ := rbind_ok h
      simp only [sliceT] at h2
      cases h2
      simp only [propT, liftP] at h
      cases h
      rfl

/-- Expressions whose slices keep their values: there are none, or their variables are current. -/
def SliceOk (V : Vers) (fr : ℕ) (e : TExpr (ZMod p)) : Prop := e.NoSlice ∨ ∀ x ∈ e.vars, Cur V fr x

theorem SliceOk.prop {V : Vers} {fr : ℕ} {e e' : TExpr (ZMod p)} (hs : SliceOk V fr e) (hC : GoodC C) (w : e.Wt) (h : propT C e = .ok e') : SliceOk V fr e' :=
  hs.imp (propT_noSlice hC _ _ h) fun hv x hx => hv x ((propT_typed hC _ _ h w).2.2 x hx)

theorem sliceT_ok {V : Vers} {fr k : ℕ} {e e' : TExpr (ZMod p)} (hC : GoodC C) (w : e.Wt) (hs : SliceOk V fr e) (h : sliceT (partF V fr C k) e = .ok e') : KeepE C e e' := by
  rcases hs with hs | hs
  · rw [sliceT_id _ _ h hs]
    exact (keepN_refl _ w).toKeepE
  · exact (sliceT_keep (partF_ok hC V fr k) _ _ h w hs).toKeepE

/-- Propagation, slices, and propagation. -/
theorem reduceExpr_ok {V : Vers} {fr k : ℕ} {e e' : TExpr (ZMod p)} (hC : GoodC C) (w : e.Wt) (hs : SliceOk V fr e) (h : reduceExpr V fr C k e = .ok e') :
    Typ e' e.ty e.vars ∧ ∀ env env' v, EnvRel C env env' → evalT env e = .ok v → evalT env' e' = .ok v := by
  simp only [reduceExpr] at h
  obtain ⟨e1, h1, h⟩ := rbind_ok h
  obtain ⟨e2, h2, h⟩ := rbind_ok h
  have h1 := liftP_ok h1
  have h3 := liftP_ok h
  have t1 := propT_typed hC _ _ h1 w
  have i2 := sliceT_ok hC t1.2.1 (hs.prop hC w h1) h2
  have t3 := propT_typed hC _ _ h3 i2.typ.2.1
  refine ⟨⟨by rw [t3.1, i2.typ.1, t1.1], t3.2.1, fun y hy => t1.2.2 y (i2.typ.2.2 y (t3.2.2 y hy))⟩, fun env env' v hR he => ?_⟩
  exact propT_eval hC hR i2.typ.2.1 h3 (i2.val env v hR.self (propT_eval hC hR.self w h1 he))

theorem reduceExprs_ok {V : Vers} {fr k : ℕ} (hC : GoodC C) : ∀ {es es' : List (TExpr (ZMod p))}, (∀ e ∈ es, e.Wt ∧ SliceOk V fr e) → reduceExprs V fr C k es = .ok es' →
    es'.map TExpr.ty = es.map TExpr.ty ∧ WtL es' ∧ (∀ y ∈ varsL es', y ∈ varsL es) ∧ ∀ env env' vs, EnvRel C env env' → evalL env es = .ok vs → evalL env' es' = .ok vs
  | [], es', hw, h => by
    simp only [reduceExprs] at h
    cases h
    exact ⟨rfl, trivial, fun _ h => h, fun _ _ vs _ h => by simp only [evalL] at h ⊢; exact h⟩
  | e :: es, es', hw, h => by
    simp only [reduceExprs] at h
    obtain ⟨l', h1, h⟩ := rbind_ok h
    obtain ⟨r', h2, h⟩ := rbind_ok h
    cases h
    obtain ⟨i1, i2⟩ := reduceExpr_ok hC (hw e List.mem_cons_self).1 (hw e List.mem_cons_self).2 h1
    obtain ⟨j1, j2, j3, j4⟩ := reduceExprs_ok hC (fun e he => hw e (List.mem_cons_of_mem _ he)) h2
    refine ⟨by simp only [List.map_cons, j1, i1.1], ⟨i1.2.1, j2⟩, ?_, fun env env' vs hR he => ?_⟩
    · intro y hy
      simp only [varsL, List.mem_append] at hy ⊢
      exact hy.imp (i1.2.2 y) (j3 y)
    · obtain ⟨a, as, g1, g2, -, g3⟩ := cons_ok he
      exact g3 _ _ _ (i2 env env' _ hR g1) (j4 env env' _ hR g2)

end Zok.Typed
