import Verif.Lemmas.FlattenTypesTotalStmt
import Verif.Lemmas.VariableWriteStmt
import Verif.Model.DeadCode

/-
The variables read by a flattened expression are components of variables of the expression.
-/

set_option linter.unusedSectionVars false
set_option linter.unusedSimpArgs false

namespace Zok.Typed
open Abi Dce
variable {p : ℕ} [Fact p.Prime] {nm : SId → ZId} {P : ZId → Prop}

/-- All variables of the expressions satisfy `P`. -/
def IdsIn (P : ZId → Prop) (es : List (ZExpr (ZMod p))) : Prop := ∀ e ∈ es, ∀ y ∈ idsZ e, P y

theorem IdsIn.nil : IdsIn (p := p) P [] := fun e h => by simp at h
theorem IdsIn.append {a b : List (ZExpr (ZMod p))} (h1 : IdsIn P a) (h2 : IdsIn P b) : IdsIn P (a ++ b) := fun e he => by
  rcases List.mem_append.1 he with h | h
  · exact h1 e h
  · exact h2 e h
theorem IdsIn.sub {a b : List (ZExpr (ZMod p))} (h1 : IdsIn P a) (h2 : ∀ e ∈ b, e ∈ a) : IdsIn P b := fun e he => h1 e (h2 e he)

theorem popF_ids {l : List (ZExpr (ZMod p))} {a : FExpr (ZMod p)} (h : IdsIn P l) (hp : popF l = some a) : ∀ y ∈ idsF a, P y := by
  simp only [popF] at hp
  split at hp
  · rename_i e he
    cases hp
    exact h _ (List.mem_of_getLast? he)
  · cases hp
theorem popB_ids {l : List (ZExpr (ZMod p))} {a : BExpr (ZMod p)} (h : IdsIn P l) (hp : popB l = some a) : ∀ y ∈ idsB a, P y := by
  simp only [popB] at hp
  split at hp
  · rename_i e he
    cases hp
    exact h _ (List.mem_of_getLast? he)
  · cases hp
theorem popU_ids {l : List (ZExpr (ZMod p))} {a : UExpr (ZMod p)} (h : IdsIn P l) (hp : popU l = some a) : ∀ y ∈ idsU a, P y := by
  simp only [popU] at hp
  split at hp
  · rename_i e he
    cases hp
    exact h _ (List.mem_of_getLast? he)
  · cases hp

theorem condZ_ids {c : BExpr (ZMod p)} {a b z : ZExpr (ZMod p)} (h : condZ c a b = some z) : idsZ z = idsB c ++ idsZ a ++ idsZ b := by
  cases a <;> cases b <;> simp only [condZ] at h <;> cases h <;> simp [idsZ, idsF, idsB, idsU, idsUI]

theorem condZs_ids {c : BExpr (ZMod p)} (hc : ∀ y ∈ idsB c, P y) : ∀ {as bs zs : List (ZExpr (ZMod p))}, IdsIn P as → IdsIn P bs → condZs c as bs = some zs →
    IdsIn P zs
  | [], [], zs, _, _, h => by simp only [condZs] at h; cases h; exact .nil
  | [], _ :: _, _, _, _, h => by simp [condZs] at h
  | _ :: _, [], _, _, _, h => by simp [condZs] at h
  | a :: as, b :: bs, zs, h1, h2, h => by
    simp only [condZs] at h
    split at h
    · rename_i e es he hes
      cases h
      have := condZs_ids hc (fun e he => h1 e (by simp [he])) (fun e he => h2 e (by simp [he])) hes
      intro z hz
      rcases List.mem_cons.1 hz with rfl | hz
      · intro y hy
        rw [condZ_ids he] at hy
        rcases List.mem_append.1 hy with hy | hy
        · rcases List.mem_append.1 hy with hy | hy
          · exact hc y hy
          · exact h1 a (by simp) y hy
        · exact h2 b (by simp) y hy
      · exact this z hz
    · cases h

theorem mem_idsFs {fs : List (FExpr (ZMod p))} {y : ZId} (h : y ∈ idsFs fs) : ∃ e ∈ fs, y ∈ idsF e := by
  induction fs with
  | nil => simp [idsFs] at h
  | cons e es ih =>
    simp only [idsFs, List.mem_append] at h
    rcases h with h | h
    · exact ⟨e, by simp, h⟩
    · obtain ⟨e', h1, h2⟩ := ih h; exact ⟨e', by simp [h1], h2⟩
theorem mem_idsBs' {fs : List (BExpr (ZMod p))} {y : ZId} (h : y ∈ idsBs fs) : ∃ e ∈ fs, y ∈ idsB e := by
  induction fs with
  | nil => simp [idsBs] at h
  | cons e es ih =>
    simp only [idsBs, List.mem_append] at h
    rcases h with h | h
    · exact ⟨e, by simp, h⟩
    · obtain ⟨e', h1, h2⟩ := ih h; exact ⟨e', by simp [h1], h2⟩
theorem mem_idsUs {fs : List (UExpr (ZMod p))} {y : ZId} (h : y ∈ idsUs fs) : ∃ e ∈ fs, y ∈ idsU e := by
  induction fs with
  | nil => simp [idsUs] at h
  | cons e es ih =>
    simp only [idsUs, List.mem_append] at h
    rcases h with h | h
    · exact ⟨e, by simp, h⟩
    · obtain ⟨e', h1, h2⟩ := ih h; exact ⟨e', by simp [h1], h2⟩

theorem selectCol_ids {i : UExpr (ZMod p)} (hi : ∀ y ∈ idsU i, P y) {col : List (ZExpr (ZMod p))} {z : ZExpr (ZMod p)} (hc : IdsIn P col)
    (h : selectCol i col = some z) : ∀ y ∈ idsZ z, P y := by
  cases col with
  | nil => simp [selectCol] at h
  | cons e es =>
    cases e with
    | bool e =>
      simp only [selectCol, Option.map_eq_some_iff] at h
      obtain ⟨bs, hb, rfl⟩ := h
      have hb := mapM_asB hb
      intro y hy
      simp only [idsZ, idsB, List.mem_append] at hy
      rcases hy with hy | hy
      · obtain ⟨b, h1, h2⟩ := mem_idsBs' hy
        exact hc (.bool b) (by rw [hb]; simp [h1]) y h2
      · exact hi y hy
    | field e =>
      simp only [selectCol, Option.map_eq_some_iff] at h
      obtain ⟨bs, hb, rfl⟩ := h
      have hb := mapM_asF hb
      intro y hy
      simp only [idsZ, idsF, List.mem_append] at hy
      rcases hy with hy | hy
      · obtain ⟨b, h1, h2⟩ := mem_idsFs hy
        exact hc (.field b) (by rw [hb]; simp [h1]) y h2
      · exact hi y hy
    | uint e =>
      simp only [selectCol, Option.map_eq_some_iff] at h
      obtain ⟨bs, hb, rfl⟩ := h
      have hb := mapM_asU hb
      intro y hy
      simp only [idsZ, idsU, idsUI, List.mem_append] at hy
      rcases hy with hy | hy
      · obtain ⟨b, h1, h2⟩ := mem_idsUs hy
        exact hc (.uint b) (by rw [hb]; simp [h1]) y h2
      · exact hi y hy

theorem zipWith_snoc_mem {α : Type _} {acc : List (List α)} {e : List α} {c : List α} (h : c ∈ List.zipWith (fun a x => a ++ [x]) acc e) {z : α} (hz : z ∈ c) :
    (∃ c' ∈ acc, z ∈ c') ∨ z ∈ e := by
  induction acc generalizing e with
  | nil => simp at h
  | cons a acc ih =>
    cases e with
    | nil => simp at h
    | cons x e =>
      simp only [List.zipWith_cons_cons, List.mem_cons] at h
      rcases h with rfl | h
      · rcases List.mem_append.1 hz with hz | hz
        · exact .inl ⟨a, by simp, hz⟩
        · exact .inr (by simp at hz; simp [hz])
      · rcases ih h with ⟨c', h1, h2⟩ | h1
        · exact .inl ⟨c', by simp [h1], h2⟩
        · exact .inr (by simp [h1])

theorem columns_mem' {chs : List (List (ZExpr (ZMod p)))} : ∀ {acc : List (List (ZExpr (ZMod p)))} {c : List (ZExpr (ZMod p))} {z : ZExpr (ZMod p)},
    c ∈ chs.foldl (fun acc e => List.zipWith (fun a x => a ++ [x]) acc e) acc → z ∈ c → (∃ c' ∈ acc, z ∈ c') ∨ ∃ e ∈ chs, z ∈ e := by
  induction chs with
  | nil => intro acc c z h hz; exact .inl ⟨c, h, hz⟩
  | cons e chs ih =>
    intro acc c z h hz
    simp only [List.foldl_cons] at h
    rcases ih h hz with ⟨c', h1, h2⟩ | ⟨e', h1, h2⟩
    · rcases zipWith_snoc_mem h1 h2 with h3 | h3
      · exact .inl h3
      · exact .inr ⟨e, by simp, h3⟩
    · exact .inr ⟨e', by simp [h1], h2⟩

theorem columns_ids {size : ℕ} {chs : List (List (ZExpr (ZMod p)))} (h : ∀ c ∈ chs, IdsIn P c) : ∀ c ∈ columns size chs, IdsIn P c := by
  intro c hc z hz
  rcases columns_mem' hc hz with ⟨c', h1, h2⟩ | ⟨e, h1, h2⟩
  · rw [List.eq_of_mem_replicate h1] at h2; simp at h2
  · exact h e h1 z h2

theorem chunks_mem0 {α : Type _} (n : ℕ) : ∀ (fuel : ℕ) (l c : List α), c ∈ chunks n fuel l → ∀ x ∈ c, x ∈ l
  | 0, l, c, h => by simp [chunks] at h
  | fuel + 1, [], c, h => by simp [chunks] at h
  | fuel + 1, a :: l, c, h => by
    simp only [chunks] at h
    rcases List.mem_cons.1 h with rfl | h
    · intro x hx; exact List.mem_of_mem_take hx
    · intro x hx; exact List.mem_of_mem_drop (chunks_mem0 n fuel _ c h x hx)

theorem slice_mem {α : Type _} {l l' : List α} {a b : ℕ} (h : Abi.slice l a b = some l') : ∀ x ∈ l', x ∈ l := by
  simp only [Abi.slice] at h
  split at h
  · cases h
    intro x hx
    first
      | exact List.mem_of_mem_drop (List.mem_of_mem_take hx)
      | exact List.mem_of_mem_take (List.mem_of_mem_drop hx)
  · cases h

theorem selectZs_ids {size : ℕ} {arr zs : List (ZExpr (ZMod p))} {i : UExpr (ZMod p)} (hi : ∀ y ∈ idsU i, P y) (ha : IdsIn P arr)
    (h : selectZs size arr i = some zs) : IdsIn P zs := by
  simp only [selectZs] at h
  split at h
  · exact ha.sub (slice_mem h)
  · split at h
    · cases h
    · have hf := forall₂_mem (mapM_forall₂ h)
      have hcols := columns_ids (size := size) (chs := chunks size arr.length arr) (P := P) fun c hc => ha.sub (chunks_mem0 _ _ _ _ hc)
      exact forall₂_right hf fun c z h => selectCol_ids hi (hcols c h.2.1) h.1

theorem eqZ_ids {a b : ZExpr (ZMod p)} {e : BExpr (ZMod p)} (h : eqZ a b = some e) : idsB e = idsZ a ++ idsZ b := by
  cases a <;> cases b <;> simp only [eqZ] at h <;> cases h <;> rfl

theorem conjTree_ids : ∀ (fuel : ℕ) {as bs : List (ZExpr (ZMod p))} {e : BExpr (ZMod p)}, IdsIn P as → IdsIn P bs → conjTree fuel as bs = some e → ∀ y ∈ idsB e, P y := by
  have one : ∀ {a b : ZExpr (ZMod p)} {e : BExpr (ZMod p)}, IdsIn P [a] → IdsIn P [b] → eqZ a b = some e → ∀ y ∈ idsB e, P y := by
    intro a b e h1 h2 h y hy
    rw [eqZ_ids h] at hy
    rcases List.mem_append.1 hy with hy | hy
    · exact h1 a (by simp) y hy
    · exact h2 b (by simp) y hy
  intro fuel
  induction fuel with
  | zero =>
    intro as bs e h1 h2 h
    unfold conjTree at h
    split at h
    · cases h; intro y hy; simp [idsB] at hy
    · exact one h1 h2 h
    · cases h
    · simp at *
  | succ fuel ih =>
    intro as bs e h1 h2 h
    unfold conjTree at h
    split at h
    · cases h; intro y hy; simp [idsB] at hy
    · exact one h1 h2 h
    · contradiction
    · rename_i f2 heq _ _
      obtain rfl : fuel = f2 := Nat.succ.inj heq
      split at h
      · split at h
        · rename_i a b ha hb
          cases h
          have i1 := ih (h1.sub fun _ => List.mem_of_mem_take) (h2.sub fun _ => List.mem_of_mem_take) ha
          have i2 := ih (h1.sub fun _ => List.mem_of_mem_drop) (h2.sub fun _ => List.mem_of_mem_drop) hb
          intro y hy
          simp only [idsB, List.mem_append] at hy
          rcases hy with hy | hy
          · exact i1 y hy
          · exact i2 y hy
        · cases h
      · cases h

theorem component_mem {α : Type _} {pre : List CType} {t : CType} {l l' : List α} (h : component pre t l = some l') : ∀ x ∈ l', x ∈ l := by
  simp only [component] at h
  split at h
  · exact slice_mem h
  · cases h

/-- The names of the components of the variables. -/
def NamesIn (nm : SId → ZId) (P : ZId → Prop) (vs : List TId) : Prop := ∀ s : SId, s.root ∈ vs → P (nm s)

theorem NamesIn.left {vs ws : List TId} (h : NamesIn nm P (vs ++ ws)) : NamesIn nm P vs := fun s hs => h s (by simp [hs])
theorem NamesIn.right {vs ws : List TId} (h : NamesIn nm P (vs ++ ws)) : NamesIn nm P ws := fun s hs => h s (by simp [hs])

theorem identExpr_ids (q : SId × ZType) : idsZ (identExpr (F := ZMod p) nm q) = [nm q.1] := by
  obtain ⟨s, t⟩ := q
  cases t <;> simp [identExpr, idsZ, idsF, idsB, idsU, idsUI]

mutual
/-- The variables of a flattened expression are components of the variables of the expression. -/
theorem flat_idsIn : ∀ (e : TExpr (ZMod p)) (zs : List (ZExpr (ZMod p))), NamesIn nm P e.vars → e.Wt → flat nm e = some zs → IdsIn P zs
  | .fval n, zs, hv, hw, hf => by simp only [flat] at hf; cases hf; intro z hz y hy; rw [List.mem_singleton.1 hz] at hy; simp [idsZ, idsF] at hy
  | .bval n, zs, hv, hw, hf => by simp only [flat] at hf; cases hf; intro z hz y hy; rw [List.mem_singleton.1 hz] at hy; simp [idsZ, idsB] at hy
  | .uval w n, zs, hv, hw, hf => by simp only [flat] at hf; cases hf; intro z hz y hy; rw [List.mem_singleton.1 hz] at hy; simp [idsZ, idsU, idsUI] at hy
  | .removed t, zs, hv, hw, hf => by simp only [flat] at hf; cases hf
  | .ident x t, zs, hv, hw, hf => by
    simp only [flat, Option.map_eq_some_iff] at hf
    obtain ⟨l, hl, rfl⟩ := hf
    simp only [TExpr.Wt] at hw
    intro z hz y hy
    obtain ⟨q, hq, rfl⟩ := List.mem_map.1 hz
    rw [identExpr_ids, List.mem_singleton] at hy
    subst hy
    refine hv q.1 ?_
    rw [flatIds_root hw.2 hl q hq]
    simp [SId.root, TExpr.vars]
  | .fneg e, zs, hv, hw, hf => by
    simp only [TExpr.Wt] at hw
    simp only [flat] at hf
    split at hf
    · rename_i x hx
      cases hf
      obtain ⟨lx, hlx, hx⟩ := bind_some hx
      have i1 := popF_ids (flat_idsIn e lx hv hw.2 hlx) hx
      intro z hz y hy
      rw [List.mem_singleton.1 hz] at hy
      simp only [idsZ, idsF, idsB, idsU, idsUI, UExpr.inner, List.nil_append] at hy i1
      exact i1 y hy
    · cases hf
  | .fpos e, zs, hv, hw, hf => by
    simp only [TExpr.Wt] at hw
    simp only [flat] at hf
    split at hf
    · rename_i x hx
      cases hf
      obtain ⟨lx, hlx, hx⟩ := bind_some hx
      have i1 := popF_ids (flat_idsIn e lx hv hw.2 hlx) hx
      intro z hz y hy
      rw [List.mem_singleton.1 hz] at hy
      simp only [idsZ, idsF, idsB, idsU, idsUI, UExpr.inner, List.nil_append] at hy i1
      exact i1 y hy
    · cases hf
  | .unot w e, zs, hv, hw, hf => by
    simp only [TExpr.Wt] at hw
    simp only [flat] at hf
    split at hf
    · rename_i x hx
      cases hf
      obtain ⟨lx, hlx, hx⟩ := bind_some hx
      have i1 := popU_ids (flat_idsIn e lx hv hw.2 hlx) hx
      intro z hz y hy
      rw [List.mem_singleton.1 hz] at hy
      simp only [idsZ, idsF, idsB, idsU, idsUI, UExpr.inner, List.nil_append] at hy i1
      exact i1 y hy
    · cases hf
  | .uneg w e, zs, hv, hw, hf => by
    simp only [TExpr.Wt] at hw
    simp only [flat] at hf
    split at hf
    · rename_i x hx
      cases hf
      obtain ⟨lx, hlx, hx⟩ := bind_some hx
      have i1 := popU_ids (flat_idsIn e lx hv hw.2 hlx) hx
      intro z hz y hy
      rw [List.mem_singleton.1 hz] at hy
      simp only [idsZ, idsF, idsB, idsU, idsUI, UExpr.inner, List.nil_append] at hy i1
      exact i1 y hy
    · cases hf
  | .upos w e, zs, hv, hw, hf => by
    simp only [TExpr.Wt] at hw
    simp only [flat] at hf
    split at hf
    · rename_i x hx
      cases hf
      obtain ⟨lx, hlx, hx⟩ := bind_some hx
      have i1 := popU_ids (flat_idsIn e lx hv hw.2 hlx) hx
      intro z hz y hy
      rw [List.mem_singleton.1 hz] at hy
      cases x; simp only [idsZ, idsF, idsB, idsU, idsUI, UExpr.inner, List.nil_append] at hy i1
      exact i1 y hy
    · cases hf
  | .bnot e, zs, hv, hw, hf => by
    simp only [TExpr.Wt] at hw
    simp only [flat] at hf
    split at hf
    · rename_i x hx
      cases hf
      obtain ⟨lx, hlx, hx⟩ := bind_some hx
      have i1 := popB_ids (flat_idsIn e lx hv hw.2 hlx) hx
      intro z hz y hy
      rw [List.mem_singleton.1 hz] at hy
      simp only [idsZ, idsF, idsB, idsU, idsUI, UExpr.inner, List.nil_append] at hy i1
      exact i1 y hy
    · cases hf
  | .fbin op l r, zs, hv, hw, hf => by
    simp only [TExpr.Wt] at hw
    simp only [flat] at hf
    split at hf
    · rename_i x y hx hy
      cases hf
      obtain ⟨lx, hlx, hx⟩ := bind_some hx
      obtain ⟨ly, hly, hy⟩ := bind_some hy
      have i1 := popF_ids (flat_idsIn l lx hv.left hw.2.2.1 hlx) hx
      have i2 := popF_ids (flat_idsIn r ly hv.right hw.2.2.2 hly) hy
      intro z hz y hy
      rw [List.mem_singleton.1 hz] at hy
      cases op <;> (simp only [idsZ, FOp.zir, FUOp.zir, UOp.zir, idsF, idsB, idsU, idsUI, List.mem_append] at hy; rcases hy with hy | hy; exact i1 y hy; exact i2 y hy)
    · cases hf
  | .fubin op l r, zs, hv, hw, hf => by
    simp only [TExpr.Wt] at hw
    simp only [flat] at hf
    split at hf
    · rename_i x y hx hy
      cases hf
      obtain ⟨lx, hlx, hx⟩ := bind_some hx
      obtain ⟨ly, hly, hy⟩ := bind_some hy
      have i1 := popF_ids (flat_idsIn l lx hv.left hw.2.2.1 hlx) hx
      have i2 := popU_ids (flat_idsIn r ly hv.right hw.2.2.2 hly) hy
      intro z hz y hy
      rw [List.mem_singleton.1 hz] at hy
      cases op <;> (simp only [idsZ, FOp.zir, FUOp.zir, UOp.zir, idsF, idsB, idsU, idsUI, List.mem_append] at hy; rcases hy with hy | hy; exact i1 y hy; exact i2 y hy)
    · cases hf
  | .ubin w op l r, zs, hv, hw, hf => by
    simp only [TExpr.Wt] at hw
    simp only [flat] at hf
    split at hf
    · rename_i x y hx hy
      cases hf
      obtain ⟨lx, hlx, hx⟩ := bind_some hx
      obtain ⟨ly, hly, hy⟩ := bind_some hy
      have i1 := popU_ids (flat_idsIn l lx hv.left hw.2.2.1 hlx) hx
      have i2 := popU_ids (flat_idsIn r ly hv.right hw.2.2.2 hly) hy
      intro z hz y hy
      rw [List.mem_singleton.1 hz] at hy
      cases op <;> (simp only [idsZ, FOp.zir, FUOp.zir, UOp.zir, idsF, idsB, idsU, idsUI, List.mem_append] at hy; rcases hy with hy | hy; exact i1 y hy; exact i2 y hy)
    · cases hf
  | .bbin op l r, zs, hv, hw, hf => by
    simp only [TExpr.Wt] at hw
    simp only [flat] at hf
    split at hf
    · rename_i x y hx hy
      cases hf
      obtain ⟨lx, hlx, hx⟩ := bind_some hx
      obtain ⟨ly, hly, hy⟩ := bind_some hy
      have i1 := popB_ids (flat_idsIn l lx hv.left hw.2.2.1 hlx) hx
      have i2 := popB_ids (flat_idsIn r ly hv.right hw.2.2.2 hly) hy
      intro z hz y hy
      rw [List.mem_singleton.1 hz] at hy
      cases op <;> (simp only [idsZ, FOp.zir, FUOp.zir, UOp.zir, idsF, idsB, idsU, idsUI, List.mem_append] at hy; rcases hy with hy | hy; exact i1 y hy; exact i2 y hy)
    · cases hf
  | .fcmp op l r, zs, hv, hw, hf => by
    simp only [TExpr.Wt] at hw
    simp only [flat] at hf
    split at hf
    · rename_i x y hx hy
      cases hf
      obtain ⟨lx, hlx, hx⟩ := bind_some hx
      obtain ⟨ly, hly, hy⟩ := bind_some hy
      have i1 := popF_ids (flat_idsIn l lx hv.left hw.2.2.1 hlx) hx
      have i2 := popF_ids (flat_idsIn r ly hv.right hw.2.2.2 hly) hy
      intro z hz y hy
      rw [List.mem_singleton.1 hz] at hy
      cases op <;> (simp only [idsZ, FOp.zir, FUOp.zir, UOp.zir, idsF, idsB, idsU, idsUI, List.mem_append] at hy; rcases hy with hy | hy; exact i1 y hy; exact i2 y hy)
    · cases hf
  | .ucmp op l r, zs, hv, hw, hf => by
    simp only [TExpr.Wt] at hw
    simp only [flat] at hf
    split at hf
    · rename_i x y hx hy
      cases hf
      obtain ⟨lx, hlx, hx⟩ := bind_some hx
      obtain ⟨ly, hly, hy⟩ := bind_some hy
      have i1 := popU_ids (flat_idsIn l lx hv.left hw.2.1 hlx) hx
      have i2 := popU_ids (flat_idsIn r ly hv.right hw.2.2 hly) hy
      intro z hz y hy
      rw [List.mem_singleton.1 hz] at hy
      cases op <;> (simp only [idsZ, FOp.zir, FUOp.zir, UOp.zir, idsF, idsB, idsU, idsUI, List.mem_append] at hy; rcases hy with hy | hy; exact i1 y hy; exact i2 y hy)
    · cases hf
  | .eq l r, zs, hv, hw, hf => by
    simp only [TExpr.Wt] at hw
    simp only [flat] at hf
    split at hf
    · rename_i as bs hx hy
      split at hf
      · obtain ⟨e, he, rfl⟩ := Option.map_eq_some_iff.1 hf
        have i1 := flat_idsIn l as hv.left hw.2.2.1 hx
        have i2 := flat_idsIn r bs hv.right hw.2.2.2 hy
        intro z hz y hy
        rw [List.mem_singleton.1 hz] at hy
        exact conjTree_ids _ i1 i2 he y hy
      · cases hf
    · cases hf
  | .cond t c a b, zs, hv, hw, hf => by
    simp only [TExpr.Wt] at hw
    simp only [flat] at hf
    split at hf
    · rename_i c' as bs hc ha hb
      obtain ⟨lc, hlc, hc⟩ := bind_some hc
      have i1 := popB_ids (flat_idsIn c lc hv.left.left hw.2.2.2.1 hlc) hc
      exact condZs_ids i1 (flat_idsIn a as hv.left.right hw.2.2.2.2.1 ha) (flat_idsIn b bs hv.right hw.2.2.2.2.2 hb) hf
    · cases hf
  | .select t a i, zs, hv, hw, hf => by
    simp only [TExpr.Wt] at hw
    simp only [flat] at hf
    split at hf
    · split at hf
      · rename_i c arr i' hc ha hi
        obtain ⟨li, hli, hi⟩ := bind_some hi
        exact selectZs_ids (popU_ids (flat_idsIn i li hv.right hw.2.2.2 hli) hi) (flat_idsIn a arr hv.left hw.2.2.1 ha) hf
      · cases hf
    · cases hf
  | .member t e m, zs, hv, hw, hf => by
    simp only [TExpr.Wt] at hw
    simp only [flat] at hf
    split at hf
    · split at hf
      · rename_i hl
        exact (flat_idsIn e _ hv hw.2 hl).sub (component_mem hf)
      · cases hf
    · cases hf
  | .element t e m, zs, hv, hw, hf => by
    simp only [TExpr.Wt] at hw
    simp only [flat] at hf
    split at hf
    · split at hf
      · rename_i hl
        exact (flat_idsIn e _ hv hw.2 hl).sub (component_mem hf)
      · cases hf
    · cases hf
  | .array t n es, zs, hv, hw, hf => by
    simp only [TExpr.Wt] at hw
    simp only [flat] at hf
    split at hf
    · split at hf
      · rename_i hl _ _
        cases hf
        exact flatS_idsIn t es _ hv hw.2.2 hl
      · cases hf
    · cases hf
  | .slice t n a lo hi, zs, hv, hw, hf => by
    simp only [TExpr.Wt] at hw
    simp only [flat] at hf
    split at hf
    · split at hf
      · rename_i hl _ _ _ _
        exact (flat_idsIn a _ hv.left.left (by tauto) hl).sub (slice_mem hf)
      · cases hf
    · cases hf
  | .repeat_ t n e c, zs, hv, hw, hf => by
    simp only [TExpr.Wt] at hw
    simp only [flat] at hf
    split at hf
    · rename_i hl _
      cases hf
      refine (flat_idsIn e _ hv.left (by tauto) hl).sub fun z hz => ?_
      obtain ⟨l, h1, h2⟩ := List.mem_flatten.1 hz
      rwa [List.eq_of_mem_replicate h1] at h2
    · cases hf
  | .struct ms es, zs, hv, hw, hf => by
    simp only [TExpr.Wt] at hw
    simp only [flat] at hf
    exact flatL_idsIn es zs hv (by tauto) hf
  | .tuple ms es, zs, hv, hw, hf => by
    simp only [TExpr.Wt] at hw
    simp only [flat] at hf
    exact flatL_idsIn es zs hv (by tauto) hf
/-- The same for lists of expressions. -/
theorem flatL_idsIn : ∀ (es : List (TExpr (ZMod p))) (zs : List (ZExpr (ZMod p))), NamesIn nm P (varsL es) → WtL es → flatL nm es = some zs → IdsIn P zs
  | [], zs, _, _, hf => by simp only [flatL] at hf; cases hf; exact .nil
  | e :: es, zs, hv, hw, hf => by
    simp only [WtL] at hw
    simp only [flatL] at hf
    split at hf
    · rename_i a b ha hb
      cases hf
      exact (flat_idsIn e a hv.left hw.1 ha).append (flatL_idsIn es b hv.right hw.2 hb)
    · cases hf
/-- The same for the elements of an array. -/
theorem flatS_idsIn (t : CType) : ∀ (es : List (TSpread (ZMod p))) (zs : List (ZExpr (ZMod p))), NamesIn nm P (varsS es) → WtS t es → flatS nm es = some zs → IdsIn P zs
  | [], zs, _, _, hf => by simp only [flatS] at hf; cases hf; exact .nil
  | .expr e :: es, zs, hv, hw, hf => by
    simp only [WtS] at hw
    simp only [flatS] at hf
    split at hf
    · rename_i a b ha hb
      cases hf
      exact (flat_idsIn e a hv.left (by tauto) ha).append (flatS_idsIn t es b hv.right (by tauto) hb)
    · cases hf
  | .spread e :: es, zs, hv, hw, hf => by
    simp only [WtS] at hw
    simp only [flatS] at hf
    split at hf
    · rename_i a b ha hb
      cases hf
      exact (flat_idsIn e a hv.left (by tauto) ha).append (flatS_idsIn t es b hv.right (by tauto) hb)
    · cases hf
end

end Zok.Typed
