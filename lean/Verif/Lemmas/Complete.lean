import Verif.Spec.Ready
import Verif.Lemmas.EndToEnd

/-
From the program logics `Scp` and `Cmp` to the completeness of gadgets.
-/

set_option linter.unusedSectionVars false
set_option linter.unusedVariables false

namespace Zok
variable {p : ℕ} {Z : Type} [Fact p.Prime] {sem : SolverSem (ZMod p) Z} {A D D' E : Set Variable}

mutual
theorem Sc.det {D D1 D2 : Set Variable} {s : FlatStmt (ZMod p) Z} (h1 : Sc D s D1) (h2 : Sc D s D2) : D1 = D2 := by
  cases h1 with
  | condition a b c => cases h2 with
    | condition => rfl
    | computed => exact absurd rfl (c _ rfl)
  | computed a b => cases h2 with
    | condition a b c => exact absurd rfl (c _ rfl)
    | computed => rfl
  | definition => cases h2 with | definition => rfl
  | directive => cases h2 with | directive => rfl
  | log => cases h2 with | log => rfl
  | block h1 => cases h2 with | block h2 => exact Scs.det h1 h2
theorem Scs.det {D D1 D2 : Set Variable} {ss : List (FlatStmt (ZMod p) Z)} (h1 : Scs D ss D1) (h2 : Scs D ss D2) :
    D1 = D2 := by
  cases h1 with
  | nil => cases h2; rfl
  | cons a b => cases h2 with
    | cons a' b' =>
      obtain rfl := Sc.det a a'
      exact Scs.det b b'
end

theorem Scs.split {D D' : Set Variable} {a b : List (FlatStmt (ZMod p) Z)} (h : Scs D (a ++ b) D') :
    ∃ D1, Scs D a D1 ∧ Scs D1 b D' := by
  induction a generalizing D with
  | nil => exact ⟨D, .nil, h⟩
  | cons s a ih =>
    cases h with
    | cons h1 h2 =>
      obtain ⟨D1, h3, h4⟩ := ih h2
      exact ⟨D1, .cons h1 h3, h4⟩

mutual
theorem Sc.good_congr {D D' : Set Variable} {s : FlatStmt (ZMod p) Z} (h : Sc D s D') {ρ σ : Assignment (ZMod p)}
    (hr : ∀ x ∈ D', ρ x = σ x) (hh : FlatStmt.Good sem ρ s) : FlatStmt.Good sem σ s := by
  cases h with
  | @condition _ l q e h1 h2 h3 =>
    cases hh with
    | condition hh => exact .condition (by rw [← In.val_congr h1 hr, ← In.val_congr h2 hr, hh])
  | @computed _ v q h1 h2 =>
    cases hh with
    | condition hh =>
      refine .condition ?_
      rw [← In.val_congr h1 fun x hx => hr x (Or.inr hx), ← hh]
      exact (hr v (Set.mem_insert _ _)).symm
  | @definition _ v q h1 h2 =>
    cases hh with
    | definition hh =>
      refine .definition ?_
      rw [← hr v (Set.mem_insert _ _), hh]
      exact In.val_congr h1 fun x hx => hr x (Or.inr hx)
  | @directive _ o s i h1 h2 h3 =>
    cases hh with
    | directive hh =>
      refine .directive ?_
      have e1 : i.map (FlatExpr.val σ) = i.map (FlatExpr.val ρ) :=
        List.map_congr_left fun e he => (In.val_congr (h1 e he) fun x hx => hr x (Or.inl hx)).symm
      have e2 : o.map σ = o.map ρ := List.map_congr_left fun x hx => (hr x (Or.inr hx)).symm
      rw [e1, e2, hh]
  | log => exact .log _
  | @block _ ss _ h1 =>
    cases hh with
    | block hh => exact .block (Scs.good_congr h1 hr hh)
theorem Scs.good_congr {D D' : Set Variable} {ss : List (FlatStmt (ZMod p) Z)} (h : Scs D ss D')
    {ρ σ : Assignment (ZMod p)} (hr : ∀ x ∈ D', ρ x = σ x) (hh : ∀ s ∈ ss, FlatStmt.Good sem ρ s) :
    ∀ s ∈ ss, FlatStmt.Good sem σ s := by
  cases h with
  | nil => intro s hs; cases hs
  | cons h1 h2 =>
    have i1 := Sc.good_congr h1 (fun x hx => hr x (Scs.subset h2 hx)) (hh _ List.mem_cons_self)
    have i2 := Scs.good_congr h2 hr (fun s hs => hh s (List.mem_cons_of_mem _ hs))
    intro s hs
    rcases List.mem_cons.1 hs with rfl | hs
    · exact i1
    · exact i2 s hs
end

theorem FlatStmt.Good.hon {ρ : Assignment (ZMod p)} {s : FlatStmt (ZMod p) Z} (h : FlatStmt.Good sem ρ s) :
    FlatStmt.Hon sem ρ s := by
  induction h with
  | condition h =>
    refine .condition fun v hv _ => ?_
    subst hv
    exact h
  | definition h => exact .definition h
  | directive h => exact .directive fun res hres _ => by rw [h] at hres; exact Except.ok.inj hres
  | log l => exact .log l
  | block h ih => exact .block ih

theorem Ready.w {ρ : Assignment (ZMod p)} {st : FlState p Z} (h : Ready sem A D ρ st) : W A st D :=
  ⟨h.emitted, h.unallocated, h.layout, h.cacheBits⟩

/-- The description only depends on the values computed so far. -/
theorem Ready.congr {ρ ρ' : Assignment (ZMod p)} {st : FlState p Z} (hr : Ready sem A D ρ st)
    (g1 : ∀ x ∈ D, ρ' x = ρ x) : Ready sem A D ρ' st where
  emitted := hr.emitted
  unallocated := hr.unallocated
  layout := hr.layout
  cacheKeys := hr.cacheKeys
  cacheBits := hr.cacheBits
  good := Scs.good_congr hr.emitted (fun x hx => (g1 x hx).symm) hr.good
  digits := by
    intro f c hc
    obtain ⟨i1, i2, i3⟩ := hr.digits f c hc
    have ef : f.val ρ' = f.val ρ := In.val_congr (hr.cacheKeys f c hc) g1
    refine ⟨i1, ?_, by rw [ef]; exact i3⟩
    rw [ef]
    unfold BitsRel at i2 ⊢
    rw [← i2]
    exact List.map_congr_left fun b hb => In.val_congr (hr.cacheBits f c hc b hb) g1

/-- The general completeness theorem. -/
theorem complete {α : Type} {m : FlatM p Z α} {Q : α → Set Variable → Prop} {P : Assignment (ZMod p) → α → Prop}
    {pre : Assignment (ZMod p) → Prop} {ρ : Assignment (ZMod p)} {st st' : FlState p Z} {a : α}
    (hr : Ready sem A D ρ st) (hm : m st = some (a, st')) (hcl : st'.clash = false)
    (hsc : Scp A D m Q)
    (hcmp : ∀ ρ', Cmp sem ρ' st.layout (pre ρ') m (P ρ'))
    (hpre : ∀ ρ' : Assignment (ZMod p), (∀ x ∈ D, ρ' x = ρ x) → pre ρ') :
    Completes sem D ρ st' (fun ρ' => P ρ' a) := by
  obtain ⟨D', hW, hDD, -, -, -⟩ := hsc st a st' D hm hr.w (le_refl _)
  obtain ⟨⟨o, ho⟩, -⟩ := hcmp ρ st a st' rfl hm
  have hsc' := hW.sc
  rw [ho] at hsc'
  obtain ⟨D1, h1, h2⟩ := hsc'.split
  obtain rfl := Scs.det h1 hr.emitted
  obtain ⟨ρ', g1, g2⟩ := h2.exists_honest (sem := sem) ρ
  have hgood : GoodF sem ρ' st.out := (hr.congr g1).good
  have hdig : CacheH ρ' st := (hr.congr g1).digits
  have hhon : HonF sem ρ' st'.out := by
    rw [ho]
    intro s hs
    rcases List.mem_append.1 hs with hs | hs
    · exact (hgood s hs).hon
    · exact g2 s hs
  obtain ⟨-, -, -, h4⟩ := hcmp ρ' st a st' rfl hm
  obtain ⟨k1, -, k3⟩ := h4 (hpre ρ' g1) hdig hgood hhon hcl
  exact ⟨ρ', g1, k1, k3⟩

end Zok
