import Verif.Lemmas.Assembly3
import Verif.Lemmas.Flat
import Verif.Lemmas.FlatMono
import Verif.Model.FlattenerStmt

/-
The shape of transformed constraints, and what they are flattened to.
-/

set_option linter.unusedSectionVars false

namespace Zok
open Prop' Dce Flt
namespace Atr
variable {p : ℕ} {Z : Type} [Fact p.Prime]

/-- Sums of literals, variables and products of a literal and a variable. -/
inductive Lin : FExpr (ZMod p) → Prop
  | value (n) : Lin (.value n)
  | ident (x) : Lin (.ident x)
  | add {l r} : Lin l → Lin r → Lin (.add l r)
  | sub {l r} : Lin l → Lin r → Lin (.sub l r)
  | multVV (n m) : Lin (.mult (.value n) (.value m))
  | multVI (n x) : Lin (.mult (.value n) (.ident x))
  | multIV (x n) : Lin (.mult (.ident x) (.value n))

/-- Both are linear, or the product of two linear expressions. -/
inductive Quad : FExpr (ZMod p) → Prop
  | lin {e} : Lin e → Quad e
  | mult {l r} : Lin l → Lin r → Quad (.mult l r)

theorem Lin.of_simple {e : FExpr (ZMod p)} (h : e.Simple) (hl : e.isLinear = true) : Lin e := by
  induction h with
  | value => exact .value _
  | ident => exact .ident _
  | add _ _ ih1 ih2 =>
    simp only [FExpr.isLinear, Bool.and_eq_true] at hl
    exact .add (ih1 hl.1) (ih2 hl.2)
  | sub _ _ ih1 ih2 =>
    simp only [FExpr.isLinear, Bool.and_eq_true] at hl
    exact .sub (ih1 hl.1) (ih2 hl.2)
  | literalL => exact .multVV _ _
  | literalV => exact .multVI _ _
  | literalR => exact .multIV _ _
  | @mult l r _ _ h1 h2 _ _ =>
    exfalso
    unfold FExpr.isLinear at hl
    split at hl <;> simp_all

theorem Lin.foldAdd {l r : FExpr (ZMod p)} (hl : Lin l) (hr : Lin r) : Lin (foldAdd l r) := by
  unfold Prop'.foldAdd
  repeat' split
  · exact hr
  · exact hl
  · exact .value _
  · exact .add hl hr

theorem Lin.foldSub {l r : FExpr (ZMod p)} (hl : Lin l) (hr : Lin r) : Lin (foldSub l r) := by
  unfold Prop'.foldSub
  repeat' split
  · exact hl
  · exact .value _
  · exact .sub hl hr

theorem Quad.foldMult {l r : FExpr (ZMod p)} (hl : Lin l) (hr : Lin r) : Quad (foldMult l r) := by
  unfold Prop'.foldMult
  repeat' split
  · exact .lin (.value _)
  · exact .lin hr
  · exact .lin hl
  · exact .lin (.value _)
  · exact .mult hl hr

theorem Lin.foldMult_ident (n : ZMod p) (x : ZId) : Lin (foldMult (.value n) (.ident x)) := by
  unfold Prop'.foldMult
  repeat' split
  · exact .value _
  · exact .ident _
  · exact .value _
  · exact .value _
  · exact .multVI _ _

theorem Lin.prop {e e' : FExpr (ZMod p)} (h : Lin e) (he : propF (fun _ => none) e = .ok e') : Lin e' := by
  induction h generalizing e' with
  | value => simp only [propF] at he; cases he; exact .value _
  | ident => simp only [propF] at he; cases he; exact .ident _
  | add _ _ ih1 ih2 =>
    simp only [propF] at he
    obtain ⟨a, h1, he⟩ := exc_bind_ok he
    obtain ⟨b, h2, he⟩ := exc_bind_ok he
    cases he
    exact (ih1 h1).foldAdd (ih2 h2)
  | sub _ _ ih1 ih2 =>
    simp only [propF] at he
    obtain ⟨a, h1, he⟩ := exc_bind_ok he
    obtain ⟨b, h2, he⟩ := exc_bind_ok he
    cases he
    exact (ih1 h1).foldSub (ih2 h2)
  | multVV n m =>
    simp only [propF, exc_ok_bind] at he
    cases he
    unfold Prop'.foldMult
    repeat' split
    all_goals first | exact .value _ | exact .multVV _ _
  | multVI n x =>
    simp only [propF, exc_ok_bind] at he
    cases he
    exact Lin.foldMult_ident n x
  | multIV x n =>
    simp only [propF, exc_ok_bind] at he
    cases he
    unfold Prop'.foldMult
    repeat' split
    · exact .value _
    · exact .value _
    · exact .ident _
    · exact .value _
    · exact .multIV _ _

theorem Quad.prop {e e' : FExpr (ZMod p)} (h : Quad e) (he : propF (fun _ => none) e = .ok e') : Quad e' := by
  cases h with
  | lin h => exact .lin (h.prop he)
  | mult h1 h2 =>
    simp only [propF] at he
    obtain ⟨a, h3, he⟩ := exc_bind_ok he
    obtain ⟨b, h4, he⟩ := exc_bind_ok he
    cases he
    exact Quad.foldMult (h1.prop h3) (h2.prop h4)

theorem linearSum_lin (ts : List (ZMod p × ZId)) : Lin (linearSum ts) := by
  have H : ∀ (ts : List (ZMod p × ZId)) acc, Lin acc → Lin (ts.foldl (fun acc t => .add acc (.mult (.value t.1) (.ident t.2))) acc) := by
    intro ts
    induction ts with
    | nil => intro acc h; exact h
    | cons t ts ih => intro acc h; exact ih _ (.add h (.multVI _ _))
  exact H ts _ (.value _)

theorem cofactor_lin {x : ZId} : ∀ {ts : List (ZMod p × ZId × ZId)} {acc e : FExpr (ZMod p)}, Lin acc → cofactor x ts acc = some e → Lin e
  | [], _, _, h, he => by simp only [cofactor, Option.some.injEq] at he; subst he; exact h
  | t :: ts, _, _, h, he => by
    simp only [cofactor, Option.bind_eq_bind, Option.bind_eq_some_iff] at he
    obtain ⟨y, _, he⟩ := he
    exact cofactor_lin (.add h (.multVI _ _)) he

theorem quadSide_quad {ts : List (ZMod p × ZId × ZId)} {e : FExpr (ZMod p)} (h : quadSide ts = .ok e) : Quad e := by
  unfold quadSide at h
  repeat' split at h
  all_goals cases h
  · exact .mult (cofactor_lin (.value _) (by assumption)) (.ident _)
  · exact .mult (.multVI _ _) (.ident _)
  · exact .lin (.value _)

theorem simple_mult {a b : FExpr (ZMod p)} (h : (FExpr.mult a b).Simple) (ha : a.isLinear = true) (hb : b.isLinear = true) : Lin a ∧ Lin b := by
  cases h with
  | literalL => exact ⟨.value _, .value _⟩
  | literalV => exact ⟨.value _, .ident _⟩
  | literalR => exact ⟨.ident _, .value _⟩
  | mult h1 h2 => exact ⟨Lin.of_simple h1 ha, Lin.of_simple h2 hb⟩

theorem arranged {l r l' r' : FExpr (ZMod p)} (hl : l.Simple) (hr : r.Simple) (h : arrange l r = (true, l', r')) : Lin l' ∧ Quad r' := by
  unfold arrange at h
  repeat' split at h
  all_goals simp only [Prod.mk.injEq, Bool.and_eq_true, Bool.false_eq_true, false_and, true_and] at h
  · obtain ⟨rfl, rfl⟩ := h
    exact ⟨.ident _, .lin (.ident _)⟩
  · obtain ⟨⟨h1, h2⟩, rfl, rfl⟩ := h
    have := simple_mult hl h1 h2
    exact ⟨Lin.of_simple hr (by assumption), .mult this.1 this.2⟩
  · obtain ⟨⟨h1, h2⟩, rfl, rfl⟩ := h
    have := simple_mult hr h1 h2
    exact ⟨Lin.of_simple hl (by assumption), .mult this.1 this.2⟩
  · obtain ⟨⟨h1, h2⟩, rfl, rfl⟩ := h
    have := simple_mult hr h1 h2
    exact ⟨Lin.of_simple hl (by assumption), .mult this.1 this.2⟩

theorem constraint_shape {l r l' r' : FExpr (ZMod p)} (hl : l.Simple) (hr : r.Simple) (h : constraint l r = .ok (l', r')) : Lin l' ∧ Quad r' := by
  unfold constraint at h
  split at h
  · rename_i ha
    cases h
    exact arranged hl hr ha
  · split at h
    · cases h
    · simp only at h
      obtain ⟨e₂, h8, h⟩ := exc_bind_ok h
      obtain ⟨e₃, h9, h⟩ := exc_bind_ok h
      obtain ⟨e₄, h10, h⟩ := exc_bind_ok h
      cases h
      simp only [propErr] at h9 h10
      split at h9
      · split at h10
        · cases h9; cases h10
          exact ⟨Lin.prop (.add (.value _) (linearSum_lin _)) (by assumption), Quad.prop (quadSide_quad h8) (by assumption)⟩
        · cases h10
      · cases h9

/-! ### Flattening -/

theorem twoLinear_run {m n : FlatM p Z (FlatExpr (ZMod p))} {st st' : FlState p Z} {ab : FlatExpr (ZMod p) × FlatExpr (ZMod p)}
    (h : twoLinear m n st = some (ab, st')) (hm : ∀ a st₁, m st = some (a, st₁) → st₁ = st ∧ a.Linear)
    (hn : ∀ a st₁, n st = some (a, st₁) → st₁ = st ∧ a.Linear) : st' = st ∧ ab.1.Linear ∧ ab.2.Linear := by
  unfold twoLinear at h
  replace ⟨a, s1, h1, h⟩ := FlatM.bind_some h
  replace ⟨b, s2, h2, h⟩ := FlatM.bind_some h
  obtain ⟨rfl, ha⟩ := hm _ _ h1
  obtain ⟨rfl, hb⟩ := hn _ _ h2
  replace ⟨a', s3, h3, h⟩ := FlatM.bind_some h
  replace ⟨b', s4, h4, h⟩ := FlatM.bind_some h
  simp only [linearise, if_pos ((FlatExpr.linear_iff _).1 ha), if_pos ((FlatExpr.linear_iff _).1 hb)] at h3 h4
  cases h3; cases h4; cases h
  exact ⟨rfl, ha, hb⟩

theorem flatten_lin {e : FExpr (ZMod p)} (h : Lin e) : ∀ {st st' : FlState p Z} {a : FlatExpr (ZMod p)},
    flattenF e st = some (a, st') → st' = st ∧ a.Linear := by
  have hid : ∀ {x : ZId} {st st' : FlState p Z} {a : FlatExpr (ZMod p)}, flattenF (.ident x) st = some (a, st') → st' = st ∧ ∃ v, a = .ident v := by
    intro x st st' a h
    simp only [flattenF] at h
    replace ⟨v, s1, h1, h⟩ := FlatM.bind_some h
    cases h
    unfold lookup at h1
    split at h1
    · cases h1; exact ⟨rfl, v, rfl⟩
    · cases h1
  have hv : ∀ {n : ZMod p} {st st' : FlState p Z} {a : FlatExpr (ZMod p)}, flattenF (.value n) st = some (a, st') → st' = st ∧ a = .value n := by
    intro x st st' a h
    simp only [flattenF] at h
    cases h
    exact ⟨rfl, rfl⟩
  induction h with
  | value n => intro st st' a h; obtain ⟨rfl, rfl⟩ := hv h; exact ⟨rfl, .value _⟩
  | ident x => intro st st' a h; obtain ⟨rfl, v, rfl⟩ := hid h; exact ⟨rfl, .ident _⟩
  | add _ _ ih1 ih2 =>
    intro st st' a h
    simp only [flattenF] at h
    replace ⟨ab, s1, h1, h⟩ := FlatM.bind_some h
    obtain ⟨rfl, h2, h3⟩ := twoLinear_run h1 (fun _ _ h => ih1 h) (fun _ _ h => ih2 h)
    cases h
    exact ⟨rfl, .add h2 h3⟩
  | sub _ _ ih1 ih2 =>
    intro st st' a h
    simp only [flattenF] at h
    replace ⟨ab, s1, h1, h⟩ := FlatM.bind_some h
    obtain ⟨rfl, h2, h3⟩ := twoLinear_run h1 (fun _ _ h => ih1 h) (fun _ _ h => ih2 h)
    cases h
    exact ⟨rfl, .sub h2 h3⟩
  | multVV n m =>
    intro st st' a h
    rw [flattenF] at h
    replace ⟨ab, s1, h1, h⟩ := FlatM.bind_some h
    unfold twoLinear at h1
    replace ⟨a₁, s2, h2, h1⟩ := FlatM.bind_some h1
    replace ⟨a₂, s3, h3, h1⟩ := FlatM.bind_some h1
    obtain ⟨rfl, rfl⟩ := hv h2
    obtain ⟨rfl, rfl⟩ := hv h3
    cases h1
    cases h
    exact ⟨rfl, .mulVV _ _⟩
  | multVI n x =>
    intro st st' a h
    rw [flattenF] at h
    replace ⟨ab, s1, h1, h⟩ := FlatM.bind_some h
    unfold twoLinear at h1
    replace ⟨a₁, s2, h2, h1⟩ := FlatM.bind_some h1
    replace ⟨a₂, s3, h3, h1⟩ := FlatM.bind_some h1
    obtain ⟨rfl, rfl⟩ := hv h2
    obtain ⟨rfl, v, rfl⟩ := hid h3
    cases h1
    cases h
    exact ⟨rfl, .mulVI _ _⟩
  | multIV x n =>
    intro st st' a h
    rw [flattenF] at h
    replace ⟨ab, s1, h1, h⟩ := FlatM.bind_some h
    unfold twoLinear at h1
    replace ⟨a₁, s2, h2, h1⟩ := FlatM.bind_some h1
    replace ⟨a₂, s3, h3, h1⟩ := FlatM.bind_some h1
    obtain ⟨rfl, v, rfl⟩ := hid h2
    obtain ⟨rfl, rfl⟩ := hv h3
    cases h1
    cases h
    exact ⟨rfl, .mulIV _ _⟩

theorem flatten_quad {e : FExpr (ZMod p)} (h : Quad e) {st st' : FlState p Z} {a : FlatExpr (ZMod p)}
    (he : flattenF e st = some (a, st')) : st' = st ∧ a.Quadratic := by
  cases h with
  | lin h => obtain ⟨h1, h2⟩ := flatten_lin h he; exact ⟨h1, .linear h2⟩
  | mult h1 h2 =>
    rw [flattenF] at he
    replace ⟨ab, s1, h3, he⟩ := FlatM.bind_some he
    obtain ⟨rfl, h4, h5⟩ := twoLinear_run h3 (fun _ _ h => flatten_lin h1 h) (fun _ _ h => flatten_lin h2 h)
    cases he
    exact ⟨rfl, .mul h4 h5⟩

theorem flatten_constraint {l r : FExpr (ZMod p)} {info : String} (hl : Lin l) (hr : Quad r) {st st' : FlState p Z}
    (h : flattenAsm (.constraint l r info) st = some ((), st')) :
    ∃ a b, a.Linear ∧ b.Quadratic ∧ st' = { st with out := st.out ++ [.condition a b (.sourceAssemblyConstraint info)] } := by
  simp only [flattenAsm] at h
  replace ⟨a, s1, h1, h⟩ := FlatM.bind_some h
  replace ⟨b, s2, h2, h⟩ := FlatM.bind_some h
  obtain ⟨rfl, ha⟩ := flatten_lin hl h1
  obtain ⟨rfl, hb⟩ := flatten_quad hr h2
  cases h
  exact ⟨a, b, ha, hb, rfl⟩

theorem lookups_st : ∀ {xs : List ZId} {st st' : FlState p Z} {vs}, lookups xs st = some (vs, st') → st' = st
  | [], _, _, _, h => by cases h; rfl
  | x :: xs, st, st', vs, h => by
    simp only [lookups] at h
    replace ⟨v, s1, h1, h⟩ := FlatM.bind_some h
    replace ⟨vs, s2, h2, h⟩ := FlatM.bind_some h
    have := lookups_st h2
    subst this
    cases h
    unfold lookup at h1
    split at h1
    · cases h1; rfl
    · cases h1

theorem useVariables_out : ∀ {xs : List ZId} {st st' : FlState p Z} {vs}, useVariables xs st = some (vs, st') →
    st'.out = st.out ∧ st'.next = st.next + xs.length
  | [], _, _, _, h => by cases h; exact ⟨rfl, rfl⟩
  | x :: xs, st, st', vs, h => by
    simp only [useVariables] at h
    replace ⟨v, s1, h1, h⟩ := FlatM.bind_some h
    replace ⟨vs, s2, h2, h⟩ := FlatM.bind_some h
    obtain ⟨h3, h4⟩ := useVariables_out h2
    cases h
    cases h1
    exact ⟨h3, by rw [h4]; simp only [List.length_cons]; omega⟩

theorem lookups_length : ∀ {xs : List ZId} {st st' : FlState p Z} {vs}, lookups xs st = some (vs, st') → vs.length = xs.length
  | [], _, _, _, h => by cases h; rfl
  | x :: xs, st, st', vs, h => by
    simp only [lookups] at h
    replace ⟨v, s1, h1, h⟩ := FlatM.bind_some h
    replace ⟨vs, s2, h2, h⟩ := FlatM.bind_some h
    have := lookups_length h2
    cases h
    simp [this]

theorem useVariables_length : ∀ {xs : List ZId} {st st' : FlState p Z} {vs}, useVariables xs st = some (vs, st') → vs.length = xs.length
  | [], _, _, _, h => by cases h; rfl
  | x :: xs, st, st', vs, h => by
    simp only [useVariables] at h
    replace ⟨v, s1, h1, h⟩ := FlatM.bind_some h
    replace ⟨vs, s2, h2, h⟩ := FlatM.bind_some h
    have := useVariables_length h2
    cases h
    simp [this]

theorem flatten_asms : ∀ (ss : List (ZAsm (ZMod p) Z)) {ss' : List (ZAsm (ZMod p) Z)} {st st' : FlState p Z},
    (∀ l r info, ZAsm.constraint l r info ∈ ss → l.Simple ∧ r.Simple) → asms ss = .ok ss' → flattenAsms ss' st = some ((), st') →
    ∃ B, st'.out = st.out ++ B ∧ List.Forall₂ ZAsm.OneStmt ss B ∧ st'.next = st.next + (ZAsm.targets ss).length
  | [], _, st, st', _, h, h' => by
    simp only [asms] at h
    cases h
    cases h'
    exact ⟨[], by simp, .nil, rfl⟩
  | .assignment xs f args :: ss, _, st, st', hs, h, h' => by
    simp only [asms, asm, exc_ok_bind] at h
    replace ⟨ss', h1, h⟩ := exc_bind_ok h
    cases h
    simp only [flattenAsms] at h'
    replace ⟨_, s1, h2, h'⟩ := FlatM.bind_some h'
    simp only [flattenAsm] at h2
    replace ⟨ins, s2, h3, h2⟩ := FlatM.bind_some h2
    replace ⟨outs, s3, h4, h2⟩ := FlatM.bind_some h2
    cases h2
    have h5 := lookups_st h3
    subst h5
    obtain ⟨h5, h6⟩ := useVariables_out h4
    obtain ⟨B, h7, h8, h9⟩ := flatten_asms ss (fun l r info h => hs l r info (by simp [h])) h1 h'
    refine ⟨.directive outs (.zir f) (ins.map FlatExpr.ident) :: B, by rw [h7]; simp [h5],
      .cons (.assignment (useVariables_length h4) (lookups_length h3)) h8, ?_⟩
    rw [h9]
    simp only [h6, ZAsm.targets, List.length_append]
    omega
  | .constraint l r info :: ss, _, st, st', hs, h, h' => by
    simp only [asms] at h
    replace ⟨s', h0, h⟩ := exc_bind_ok h
    replace ⟨ss', h1, h⟩ := exc_bind_ok h
    cases h
    simp only [asm] at h0
    replace ⟨⟨l', r'⟩, h2, h0⟩ := exc_bind_ok h0
    cases h0
    simp only [flattenAsms] at h'
    replace ⟨_, s1, h3, h'⟩ := FlatM.bind_some h'
    obtain ⟨h4, h5⟩ := hs l r info (by simp)
    obtain ⟨h6, h7⟩ := constraint_shape h4 h5 h2
    obtain ⟨a, b, h8, h9, rfl⟩ := flatten_constraint h6 h7 h3
    obtain ⟨B, h10, h11, h12⟩ := flatten_asms ss (fun l r info h => hs l r info (by simp [h])) h1 h'
    exact ⟨_ :: B, by rw [h10]; simp, .cons (.constraint h8 h9) h11, by rw [h12]; rfl⟩

/-! ### Errors -/

theorem propErr_poly {d : ℕ} {e : FExpr (ZMod p)} (h : e.Degree d) : ∃ e', propErr (propF (fun _ => none) e) = .ok e' := by
  obtain ⟨e', h1, -⟩ := prop_poly h
  exact ⟨e', by rw [h1]; rfl⟩

theorem Lin.degree {e : FExpr (ZMod p)} (h : Lin e) : e.Degree 1 := by
  induction h with
  | value => exact .value
  | ident => exact .ident le_rfl
  | add _ _ ih1 ih2 => exact .add ih1 ih2
  | sub _ _ ih1 ih2 => exact .sub ih1 ih2
  | multVV => exact .mult (a := 0) (b := 0) .value .value (by omega)
  | multVI => exact .mult (a := 0) (b := 1) .value (.ident le_rfl) (by omega)
  | multIV => exact .mult (a := 1) (b := 0) (.ident le_rfl) .value (by omega)

theorem Quad.degree {e : FExpr (ZMod p)} (h : Quad e) : e.Degree 2 := by
  cases h with
  | lin h => exact h.degree.mono (by omega)
  | mult h1 h2 => exact .mult h1.degree h2.degree (by omega)

theorem constraint_error {l r : FExpr (ZMod p)} {e : AtrError} (h : constraint l r = .error e) : e = .nonQuadratic := by
  unfold constraint at h
  split at h
  · cases h
  · split at h
    · cases h; rfl
    · rename_i q hq
      simp only at h
      cases h1 : quadSide q.quadratic with
      | error e' =>
        rw [h1] at h
        have : e' = e := by cases h; rfl
        subst this
        cases e' with
        | nonQuadratic => rfl
        | panic => exact absurd h1 (quadSide_no_panic _)
        | propagation x =>
          exfalso
          unfold quadSide at h1
          repeat' split at h1
          all_goals cases h1
      | ok qe =>
        rw [h1] at h
        obtain ⟨a, ha⟩ := propErr_poly (Lin.degree (.add (.value q.constant) (linearSum_lin q.linear)))
        obtain ⟨b, hb⟩ := propErr_poly (quadSide_quad h1).degree
        simp only [exc_ok_bind, ha, hb] at h
        cases h

theorem asms_error : ∀ (ss : List (ZAsm (ZMod p) Z)) {e : AtrError}, asms ss = .error e → e = .nonQuadratic
  | [], _, h => by simp only [asms] at h; cases h
  | s :: ss, e, h => by
    simp only [asms] at h
    cases h1 : asm s with
    | error e' =>
      rw [h1] at h
      cases h
      cases s with
      | assignment => simp only [asm] at h1; cases h1
      | constraint l r info =>
        simp only [asm] at h1
        cases h2 : constraint l r with
        | error e'' => rw [h2] at h1; cases h1; exact constraint_error h2
        | ok x => rw [h2] at h1; cases h1
    | ok s' =>
      rw [h1] at h
      simp only [exc_ok_bind] at h
      cases h2 : asms ss with
      | error e' => rw [h2] at h; cases h; exact asms_error ss h2
      | ok ss' => rw [h2] at h; cases h

mutual
theorem stmt_error : ∀ (s : ZStmt (ZMod p) Z) {e : AtrError}, stmt s = .error e → e = .nonQuadratic
  | .ifElse c t f, e, h => by
    have ih1 := @stmts_error t
    have ih2 := @stmts_error f
    simp only [stmt] at h
    cases h1 : stmts t with
    | error e' => rw [h1] at h; cases h; exact ih1 h1
    | ok s' =>
      rw [h1] at h
      simp only [exc_ok_bind] at h
      cases h2 : stmts f with
      | error e' => rw [h2] at h; cases h; exact ih2 h2
      | ok ss' => rw [h2] at h; cases h
  | .assembly ss, e, h => by
    simp only [stmt] at h
    cases h1 : asms ss with
    | error e' => rw [h1] at h; cases h; exact asms_error ss h1
    | ok s' => rw [h1] at h; cases h
  | .ret _, _, h | .definition _ _, _, h | .assertion _ _, _, h | .multiDef _ _ _ _, _, h | .log _, _, h => by
    simp only [stmt] at h; cases h
theorem stmts_error : ∀ (ss : List (ZStmt (ZMod p) Z)) {e : AtrError}, stmts ss = .error e → e = .nonQuadratic
  | [], _, h => by simp only [stmts] at h; cases h
  | s :: ss, e, h => by
    have ih1 := @stmt_error s
    have ih2 := @stmts_error ss
    simp only [stmts] at h
    cases h1 : stmt s with
    | error e' => rw [h1] at h; cases h; exact ih1 h1
    | ok s' =>
      rw [h1] at h
      simp only [exc_ok_bind] at h
      cases h2 : stmts ss with
      | error e' => rw [h2] at h; cases h; exact ih2 h2
      | ok ss' => rw [h2] at h; cases h
end


end Atr
end Zok
