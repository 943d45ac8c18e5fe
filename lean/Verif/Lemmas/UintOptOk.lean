import Verif.Lemmas.UintOptExec
import Verif.Lemmas.Gadgets
import Verif.Props.Field

/-
Lemmas on the range analysis: it does not panic on well-typed expressions, and its annotations are correct except for
shifts and subtractions.
-/

set_option linter.unusedSectionVars false
set_option linter.unusedSimpArgs false

namespace Zok.Uo
open Fld
variable {p : ℕ} {Z : Type} [Fact p.Prime] {ids : Ids p} {Γ : TCtx} {K : Ctx}

/-- The table, the types and the bounds agree. -/
def IdsOk (Γ : TCtx) (ids : Ids p) (K : Ctx) : Prop := ∀ x, match Γ x with
  | none => K x = none
  | some .field => K x = some .field
  | some .bool => K x = some .bool
  | some (.uint w) => ∃ m : ZMod p, ids x w = some ⟨m, .no⟩ ∧ m.val < 2 ^ (requiredBits p - 1) ∧
      K x = some (.uint w m.val)

theorem IdsOk.none (h : IdsOk Γ ids K) {x : ZId} (hx : Γ x = none) : K x = none := by
  have := h x; rw [hx] at this; exact this
theorem IdsOk.field (h : IdsOk Γ ids K) {x : ZId} (hx : Γ x = some .field) : K x = some .field := by
  have := h x; rw [hx] at this; exact this
theorem IdsOk.bool (h : IdsOk Γ ids K) {x : ZId} (hx : Γ x = some .bool) : K x = some .bool := by
  have := h x; rw [hx] at this; exact this
theorem IdsOk.uint (h : IdsOk Γ ids K) {x : ZId} {w : ℕ} (hx : Γ x = some (.uint w)) :
    ∃ m : ZMod p, ids x w = some ⟨m, .no⟩ ∧ m.val < 2 ^ (requiredBits p - 1) ∧ K x = some (.uint w m.val) := by
  have := h x; rw [hx] at this; exact this

theorem pow_lt_p {k : ℕ} (hk : k < requiredBits p) (h2 : 2 < requiredBits p) : 2 ^ k < p := by
  have h : p ≠ 2 := by
    rintro rfl
    have : requiredBits 2 = 2 := by decide
    omega
  exact lt_of_le_of_lt (Nat.pow_le_pow_right (by norm_num) (by omega)) (two_pow_lt h)

theorem val_two_pow {k : ℕ} (hk : k < requiredBits p) (h2 : 2 < requiredBits p) : ((2 : ZMod p) ^ k).val = 2 ^ k := by
  have h : ((2 : ZMod p) ^ k) = ((2 ^ k : ℕ) : ZMod p) := by push_cast; rfl
  rw [h, val_natCast_of_lt (pow_lt_p hk h2)]

theorem val_two_pow_sub_one {k : ℕ} (hk : k < requiredBits p) (h2 : 2 < requiredBits p) :
    ((2 : ZMod p) ^ k - 1).val = 2 ^ k - 1 := by
  have h : ((2 : ZMod p) ^ k - 1) = ((2 ^ k - 1 : ℕ) : ZMod p) := by
    rw [Nat.cast_sub Nat.one_le_two_pow]; push_cast; rfl
  have := pow_lt_p (p := p) hk h2
  rw [h, val_natCast_of_lt (lt_of_le_of_lt (Nat.sub_le _ _) this)]

theorem val_rangeMax {w : ℕ} (hw : WidthOk p w) : (rangeMax p w).val = 2 ^ w - 1 := by
  have := pow_lt_p (p := p) (k := w) (by have := hw.2; omega) (by have := hw.2; omega)
  exact val_natCast_of_lt (lt_of_le_of_lt (Nat.sub_le _ _) this)

/-- Room for sums and products. -/
theorem _root_.Zok.WidthOk.room {w : ℕ} (hw : WidthOk p w) : 2 ≤ 2 ^ w ∧ 4 * 2 ^ w * 2 ^ w ≤ 2 ^ (requiredBits p - 1) := by
  refine ⟨?_, ?_⟩
  · calc 2 = 2 ^ 1 := rfl
      _ ≤ 2 ^ w := Nat.pow_le_pow_right (by norm_num) hw.1
  · calc 4 * 2 ^ w * 2 ^ w = 2 ^ (2 + w + w) := by rw [pow_add, pow_add]; norm_num
      _ ≤ _ := Nat.pow_le_pow_right (by norm_num) (by have := hw.2; omega)

theorem _root_.Zok.WidthOk.room' {w : ℕ} (hw : WidthOk p w) : 2 ≤ 2 ^ w ∧ 8 * 2 ^ w ≤ 2 ^ (requiredBits p - 1) := by
  obtain ⟨h1, h2⟩ := hw.room
  refine ⟨h1, le_trans ?_ h2⟩
  nlinarith

theorem bound_lt_p {w : ℕ} (hw : WidthOk p w) : 2 ^ (requiredBits p - 1) < p :=
  pow_lt_p (by have := hw.2; omega) (by have := hw.2; omega)

theorem checkedAdd_cases {x y : ZMod p} (hx : x.val < 2 ^ (requiredBits p - 1)) (hy : y.val < 2 ^ (requiredBits p - 1)) :
    (∃ r, checkedAdd x y = .some r ∧ r.val = x.val + y.val ∧ r.val < 2 ^ (requiredBits p - 1)) ∨
    (checkedAdd x y = .none ∧ 2 ^ (requiredBits p - 1) ≤ x.val + y.val) := by
  obtain ⟨h1, h2⟩ := C38_checked_add x y (by omega) (by omega)
  rcases Nat.lt_or_ge (x.val + y.val) (2 ^ (requiredBits p - 1)) with h | h
  · obtain ⟨r, h3, h4⟩ := h1 (by omega)
    exact Or.inl ⟨r, h3, h4, by omega⟩
  · exact Or.inr ⟨h2 (by omega), h⟩

theorem checkedMul_cases {x y : ZMod p} (hx : x.val < 2 ^ (requiredBits p - 1)) (hy : y.val < 2 ^ (requiredBits p - 1)) :
    (∃ r, checkedMul x y = .some r ∧ r.val = x.val * y.val ∧ r.val < 2 ^ (requiredBits p - 1)) ∨
    (checkedMul x y = .none ∧ 2 ^ (requiredBits p - 1) ≤ x.val * y.val) := by
  obtain ⟨h1, h2⟩ := C38_checked_mul x y (by omega) (by omega)
  rcases Nat.lt_or_ge (x.val * y.val) (2 ^ (requiredBits p - 1)) with h | h
  · obtain ⟨r, h3, h4⟩ := h1 (by omega)
    exact Or.inl ⟨r, h3, h4, by omega⟩
  · exact Or.inr ⟨h2 (by omega), h⟩

theorem chooseAdd_ok {w : ℕ} (hw : WidthOk p w) {lm rm : ZMod p} (hl : lm.val < 2 ^ (requiredBits p - 1))
    (hr : rm.val < 2 ^ (requiredBits p - 1)) :
    ∃ bl br m, choose checkedAdd lm rm (rangeMax p w) (rangeMax p w + rangeMax p w) = some (bl, br, m) ∧
      m.val < 2 ^ (requiredBits p - 1) ∧
      (if bl then 2 ^ w - 1 else lm.val) + (if br then 2 ^ w - 1 else rm.val) ≤ m.val := by
  obtain ⟨r1, r2⟩ := hw.room'
  have hg := val_rangeMax hw
  have hg' : (rangeMax p w).val < 2 ^ (requiredBits p - 1) := by omega
  unfold choose
  rcases checkedAdd_cases hl hr with ⟨r, h1, h2, h3⟩ | ⟨h1, _⟩
  · rw [h1]; exact ⟨_, _, _, rfl, h3, by simp [h2]⟩
  rw [h1]
  rcases checkedAdd_cases hg' hr with ⟨r, h1, h2, h3⟩ | ⟨h1, _⟩
  · rw [h1]; exact ⟨_, _, _, rfl, h3, by simp [h2, hg]⟩
  rw [h1]
  rcases checkedAdd_cases hl hg' with ⟨r, h1, h2, h3⟩ | ⟨h1, _⟩
  · rw [h1]; exact ⟨_, _, _, rfl, h3, by simp [h2, hg]⟩
  rw [h1]
  have hb := bound_lt_p hw
  have e : (rangeMax p w + rangeMax p w).val = (2 ^ w - 1) + (2 ^ w - 1) := by
    rw [ZMod.val_add_of_lt (by omega), hg]
  exact ⟨_, _, _, rfl, by omega, by simp [e]⟩

theorem chooseMul_ok {w : ℕ} (hw : WidthOk p w) {lm rm : ZMod p} (hl : lm.val < 2 ^ (requiredBits p - 1))
    (hr : rm.val < 2 ^ (requiredBits p - 1)) :
    ∃ bl br m, choose checkedMul lm rm (rangeMax p w) (rangeMax p w * rangeMax p w) = some (bl, br, m) ∧
      m.val < 2 ^ (requiredBits p - 1) ∧
      (if bl then 2 ^ w - 1 else lm.val) * (if br then 2 ^ w - 1 else rm.val) ≤ m.val := by
  obtain ⟨r1, r2⟩ := hw.room'
  have hg := val_rangeMax hw
  have hg' : (rangeMax p w).val < 2 ^ (requiredBits p - 1) := by omega
  unfold choose
  rcases checkedMul_cases hl hr with ⟨r, h1, h2, h3⟩ | ⟨h1, _⟩
  · rw [h1]; exact ⟨_, _, _, rfl, h3, by simp [h2]⟩
  rw [h1]
  rcases checkedMul_cases hg' hr with ⟨r, h1, h2, h3⟩ | ⟨h1, _⟩
  · rw [h1]; exact ⟨_, _, _, rfl, h3, by simp [h2, hg]⟩
  rw [h1]
  rcases checkedMul_cases hl hg' with ⟨r, h1, h2, h3⟩ | ⟨h1, _⟩
  · rw [h1]; exact ⟨_, _, _, rfl, h3, by simp [h2, hg]⟩
  rw [h1]
  have hb := bound_lt_p hw
  have hlt : (2 ^ w - 1) * (2 ^ w - 1) < 2 ^ (requiredBits p - 1) := by
    have := hw.room.2
    have h3 : (2 ^ w - 1) * (2 ^ w - 1) ≤ 2 ^ w * 2 ^ w := Nat.mul_le_mul (by omega) (by omega)
    have h4 : 0 < 2 ^ w * 2 ^ w := by positivity
    have h5 : 4 * 2 ^ w * 2 ^ w = 4 * (2 ^ w * 2 ^ w) := by ring
    omega
  have e : (rangeMax p w * rangeMax p w).val = (2 ^ w - 1) * (2 ^ w - 1) := by
    rw [ZMod.val_mul, hg, Nat.mod_eq_of_lt (by omega)]
  exact ⟨_, _, _, rfl, by omega, by simp [e]⟩

theorem bits_le_of_lt {x : ZMod p} {k : ℕ} (hk : 1 ≤ k) (h : x.val < 2 ^ k) : bits x ≤ k := by
  rw [bits_eq]
  have := Nat.size_le.2 h
  omega

theorem chooseSub_ok {w : ℕ} (hw : WidthOk p w) {lm rm : ZMod p} (hl : lm.val < 2 ^ (requiredBits p - 1))
    (hr : rm.val < 2 ^ (requiredBits p - 1)) :
    ∃ bl br m, chooseSub w lm (bits rm) = some (bl, br, m) ∧ m.val < 2 ^ (requiredBits p - 1) ∧
      (rm.val < 2 ^ (requiredBits p - 2) → br = false ∧
        (if bl then 2 ^ w - 1 else lm.val) + 2 ^ (max (bits rm) w) ≤ m.val) := by
  obtain ⟨r1, r2⟩ := hw.room'
  obtain ⟨w1, w2⟩ := hw
  have hg := val_rangeMax ⟨w1, w2⟩
  have hg' : (rangeMax p w).val < 2 ^ (requiredBits p - 1) := by omega
  have hb1 := bits_le_of_lt (k := requiredBits p - 1) (by omega) hr
  have ht : ((2 : ZMod p) ^ w).val = 2 ^ w := val_two_pow (by omega) (by omega)
  have hbd := bound_lt_p ⟨w1, w2⟩
  unfold chooseSub
  by_cases hc : bits rm = requiredBits p - 1
  · simp only [hc, if_true]
    have no : ¬ rm.val < 2 ^ (requiredBits p - 2) := by
      intro h
      have := bits_le_of_lt (by omega) h
      omega
    rcases checkedAdd_cases hl (y := (2 : ZMod p) ^ w) (by omega) with ⟨r, h1, h2, h3⟩ | ⟨h1, _⟩
    · rw [h1]; exact ⟨_, _, _, rfl, h3, fun h => absurd h no⟩
    · rw [h1]
      refine ⟨_, _, _, rfl, ?_, fun h => absurd h no⟩
      rw [ZMod.val_add_of_lt (by omega), hg, ht]; omega
  · simp only [hc, if_false]
    have hk : max (bits rm) w ≤ requiredBits p - 2 := by omega
    have ho : ((2 : ZMod p) ^ (max (bits rm) w)).val = 2 ^ (max (bits rm) w) := val_two_pow (by omega) (by omega)
    have ho2 : 2 ^ (max (bits rm) w) ≤ 2 ^ (requiredBits p - 2) := Nat.pow_le_pow_right (by norm_num) hk
    have ho3 : 2 ^ (requiredBits p - 1) = 2 * 2 ^ (requiredBits p - 2) := by
      rw [← pow_succ', show requiredBits p - 2 + 1 = requiredBits p - 1 by omega]
    rcases checkedAdd_cases hl (y := (2 : ZMod p) ^ (max (bits rm) w)) (by omega) with ⟨r, h1, h2, h3⟩ | ⟨h1, _⟩
    · rw [h1]; exact ⟨_, _, _, rfl, h3, fun _ => ⟨rfl, by simp [h2, ho]⟩⟩
    rw [h1]
    rcases checkedAdd_cases hg' (y := (2 : ZMod p) ^ (max (bits rm) w)) (by omega) with ⟨r, h1, h2, h3⟩ | ⟨h1, h2⟩
    · rw [h1]; exact ⟨_, _, _, rfl, h3, fun _ => ⟨rfl, by simp [h2, ho, hg]⟩⟩
    · exfalso
      omega

/-- A folded expression, before it is known whether it is reduced. -/
def Folded (K : Ctx) (e0 e : UExpr (ZMod p)) : Prop :=
  ∃ m i, e = .mk e0.width (some m) i ∧ m.shouldReduce ≠ .yes ∧ m.max.val < 2 ^ (requiredBits p - 1) ∧
    (RegU e → OkU K e)

theorem Folded.maxOf {e0 e : UExpr (ZMod p)} (h : Folded K e0 e) :
    ∃ m, maxOf e = some m ∧ e.amax = m.val ∧ m.val < 2 ^ (requiredBits p - 1) := by
  obtain ⟨m, i, rfl, _, h2, _⟩ := h
  exact ⟨m.max, rfl, rfl, h2⟩

/-- A folded expression with a decision on whether it is reduced. -/
structure Forced (K : Ctx) (e0 : UExpr (ZMod p)) (e1 : UExpr (ZMod p)) (b : Bool) (e : UExpr (ZMod p)) : Prop where
  width : e.width = e0.width
  amax : e.amax = e1.amax
  bound : e.amax < 2 ^ (requiredBits p - 1)
  emax : e.emax ≤ if b then 2 ^ e0.width - 1 else e.amax
  reduced : b = true → e.Reduced
  info : e.info.map UMeta.max = e1.info.map UMeta.max
  reg : RegU e → RegU e1
  ok : RegU e → OkU K e

theorem okU_info {w : ℕ} {m m' : UMeta (ZMod p)} {i : UInner (ZMod p)} (h : m.max = m'.max)
    (ho : OkU K (.mk w (some m) i)) : OkU K (.mk w (some m') i) := by
  simp only [OkU] at ho ⊢
  obtain ⟨⟨m1, h1, h2⟩, h3⟩ := ho
  cases h1
  refine ⟨⟨m', rfl, by rw [← h]; exact h2⟩, ?_⟩
  simp only [UExpr.amax, UExpr.info, ← h] at h3 ⊢
  exact h3

theorem regU_info {w : ℕ} {m m' : UMeta (ZMod p)} {i : UInner (ZMod p)} (h : m.max = m'.max)
    (ho : RegU (.mk w (some m) i)) : RegU (.mk w (some m') i) := by
  simp only [RegU, UExpr.amax, UExpr.info, ← h] at ho ⊢
  exact ho

theorem Folded.reduce {e0 e : UExpr (ZMod p)} (h : Folded K e0 e) :
    ∃ e', forceReduce e = some e' ∧ Forced K e0 e true e' := by
  obtain ⟨m, i, rfl, h1, h2, h3⟩ := h
  refine ⟨_, rfl, rfl, rfl, h2, ?_, fun _ => ⟨_, rfl, rfl⟩, rfl, regU_info rfl, ?_⟩
  · simp [UExpr.emax, UExpr.info, UExpr.width]
  · exact fun hr => okU_info (m := m) rfl (h3 (regU_info rfl hr))

theorem Folded.noReduce {e0 e : UExpr (ZMod p)} (h : Folded K e0 e) :
    ∃ e', forceNoReduce e = some e' ∧ Forced K e0 e false e' ∧ e'.info.map UMeta.shouldReduce = some .no := by
  obtain ⟨m, i, rfl, h1, h2, h3⟩ := h
  have hm : makeFalse m.shouldReduce = some .no := by
    cases hs : m.shouldReduce
    · rfl
    · exact absurd hs h1
    · rfl
  refine ⟨.mk e0.width (some ⟨m.max, .no⟩) i, by simp [forceNoReduce, hm], ?_, rfl⟩
  refine ⟨rfl, rfl, h2, ?_, by simp, rfl, regU_info rfl, ?_⟩
  · simp [UExpr.emax, UExpr.amax, UExpr.info, UExpr.width]
  · exact fun hr => okU_info (m := m) rfl (h3 (regU_info rfl hr))

theorem Folded.forceIf {e0 e : UExpr (ZMod p)} (h : Folded K e0 e) (b : Bool) :
    ∃ e', Uo.forceIf b e = some e' ∧ Forced K e0 e b e' := by
  cases b
  · obtain ⟨e', h1, h2, _⟩ := h.noReduce
    exact ⟨e', h1, h2⟩
  · exact h.reduce

/-- What `maxOfAll` computes. -/
theorem maxOfAll_ok {es : List (UExpr (ZMod p))} (hne : es ≠ [])
    (h : ∀ e ∈ es, ∃ m, Uo.maxOf e = some m ∧ e.amax = m.val ∧ m.val < 2 ^ (requiredBits p - 1)) :
    ∃ n, maxOfAll es = some n ∧ n < 2 ^ (requiredBits p - 1) ∧ ∀ e ∈ es, e.amax ≤ n := by
  induction es with
  | nil => exact absurd rfl hne
  | cons e es ih =>
    obtain ⟨m, h1, h2, h3⟩ := h e (by simp)
    cases es with
    | nil =>
      refine ⟨m.val, by simp [maxOfAll, h1], h3, ?_⟩
      intro e' he'
      simp at he'
      subst he'
      omega
    | cons e2 es =>
      obtain ⟨n, g1, g2, g3⟩ := ih (by simp) (fun e he => h e (by simp [he]))
      refine ⟨max m.val n, by simp [maxOfAll, h1, g1], by omega, ?_⟩
      intro e' he'
      rcases List.mem_cons.1 he' with rfl | he'
      · omega
      · have := g3 e' he'
        omega

/-- Lists of folded elements. -/
def FoldedL (K : Ctx) (w : ℕ) (es : List (UExpr (ZMod p))) : Prop :=
  ∀ e ∈ es, (∃ m, Uo.maxOf e = some m ∧ e.amax = m.val ∧ m.val < 2 ^ (requiredBits p - 1)) ∧ e.width = w ∧
    e.emax ≤ e.amax ∧ (RegU e → OkU K e)

theorem okUs_of {w mx : ℕ} : ∀ {es : List (UExpr (ZMod p))}, FoldedL K w es → (∀ e ∈ es, e.amax ≤ mx) → RegUs es →
    OkUs K w mx es
  | [], _, _, _ => trivial
  | e :: es, h, hm, hr => by
    obtain ⟨_, h2, h3, h4⟩ := h e (by simp)
    simp only [RegUs] at hr
    simp only [OkUs]
    refine ⟨⟨h4 hr.1, h2, le_trans h3 (hm e (by simp))⟩, ?_⟩
    exact okUs_of (fun e he => h e (by simp [he])) (fun e he => hm e (by simp [he])) hr.2

theorem literal_fold {e : UExpr (ZMod p)} (he : IsLiteral32 e) :
    ∃ n m, n < 2 ^ 32 ∧ e = .mk 32 none (.value n) ∧ uoU ids e = some (.mk 32 (some m) (.value n)) := by
  obtain ⟨⟨n, rfl, hn⟩, h1, h2⟩ := he
  refine ⟨n, withMax (n : ZMod p), hn, rfl, ?_⟩
  have : 32 < (requiredBits p - 1) / 2 := by omega
  simp [uoU, uoUI, this]

theorem regU_literal {w n : ℕ} {m : Option (UMeta (ZMod p))} : RegU (p := p) (.mk w m (.value n)) := by
  simp [RegU, NodeRegular, RegUI]

theorem leftShiftMax_lt {w k : ℕ} (hw : WidthOk p w) (m : ZMod p) : leftShiftMax w k m < 2 ^ w := by
  have : 0 < 2 ^ w := by positivity
  unfold leftShiftMax
  have := Nat.and_le_right (n := m.val <<< k) (m := 2 ^ w - 1)
  omega

theorem rightShiftMax_lt {w k : ℕ} (hw : WidthOk p w) (m : ZMod p) : rightShiftMax w k m < 2 ^ w := by
  have : 0 < 2 ^ w := by positivity
  unfold rightShiftMax
  have h1 := Nat.and_le_right (n := m.val) (m := 2 ^ w - 1)
  have h2 : (m.val &&& (2 ^ w - 1)) >>> k ≤ m.val &&& (2 ^ w - 1) := by
    rw [Nat.shiftRight_eq_div_pow]; exact Nat.div_le_self _ _
  omega

section
variable (hI : IdsOk Γ ids K)
include hI

set_option maxHeartbeats 2000000 in
mutual
theorem uoF_ok : ∀ (e : FExpr (ZMod p)), WtF Γ e → ∃ e', uoF ids e = some e' ∧ (RegF e' → OkF K e')
  | .value n, _ => ⟨_, rfl, fun _ => by simp only [OkF]⟩
  | .ident x, h => ⟨_, rfl, fun _ => by simp only [OkF]; simp only [WtF] at h; exact hI.field h⟩
  | .select es i, h => by
    simp only [WtF] at h
    obtain ⟨h1, h2, h3, h4⟩ := h
    obtain ⟨es', e1, l1, o1⟩ := uoFs_ok es h1
    obtain ⟨i', e2, f2⟩ := uoU_ok i h3
    obtain ⟨i'', e3, f3⟩ := f2.reduce
    refine ⟨.select es' i'', by simp only [uoF, e1, e2, e3, Option.bind_eq_bind, Option.bind_some], fun hr => ?_⟩
    simp only [RegF] at hr
    simp only [OkF]
    exact ⟨o1 hr.1, by omega, f3.ok hr.2, by rw [f3.width]; exact h4, f3.reduced rfl⟩
  | .add l r, h => by
    simp only [WtF] at h
    obtain ⟨l', e1, o1⟩ := uoF_ok l h.1
    obtain ⟨r', e2, o2⟩ := uoF_ok r h.2
    refine ⟨.add l' r', by simp only [uoF, e1, e2, Option.bind_eq_bind, Option.bind_some], fun hr => ?_⟩
    simp only [RegF] at hr
    simp only [OkF]
    exact ⟨o1 hr.1, o2 hr.2⟩
  | .sub l r, h => by
    simp only [WtF] at h
    obtain ⟨l', e1, o1⟩ := uoF_ok l h.1
    obtain ⟨r', e2, o2⟩ := uoF_ok r h.2
    refine ⟨.sub l' r', by simp only [uoF, e1, e2, Option.bind_eq_bind, Option.bind_some], fun hr => ?_⟩
    simp only [RegF] at hr
    simp only [OkF]
    exact ⟨o1 hr.1, o2 hr.2⟩
  | .mult l r, h => by
    simp only [WtF] at h
    obtain ⟨l', e1, o1⟩ := uoF_ok l h.1
    obtain ⟨r', e2, o2⟩ := uoF_ok r h.2
    refine ⟨.mult l' r', by simp only [uoF, e1, e2, Option.bind_eq_bind, Option.bind_some], fun hr => ?_⟩
    simp only [RegF] at hr
    simp only [OkF]
    exact ⟨o1 hr.1, o2 hr.2⟩
  | .div l r, h => by
    simp only [WtF] at h
    obtain ⟨l', e1, o1⟩ := uoF_ok l h.1
    obtain ⟨r', e2, o2⟩ := uoF_ok r h.2
    refine ⟨.div l' r', by simp only [uoF, e1, e2, Option.bind_eq_bind, Option.bind_some], fun hr => ?_⟩
    simp only [RegF] at hr
    simp only [OkF]
    exact ⟨o1 hr.1, o2 hr.2⟩
  | .pow l r, h => by
    simp only [WtF] at h
    obtain ⟨l', e1, o1⟩ := uoF_ok l h.1
    obtain ⟨n, m, hn, e3, e2⟩ := literal_fold (ids := ids) h.2
    refine ⟨.pow l' (.mk 32 (some m) (.value n)), by simp only [uoF, e1, e2, Option.bind_eq_bind, Option.bind_some], fun hr => ?_⟩
    simp only [RegF] at hr
    simp only [OkF]
    exact ⟨o1 hr.1, 32, _, n, rfl, lt_trans hn (by norm_num)⟩
  | .cond c l r, h => by
    simp only [WtF] at h
    obtain ⟨c', e0, o0⟩ := uoB_ok c h.1
    obtain ⟨l', e1, o1⟩ := uoF_ok l h.2.1
    obtain ⟨r', e2, o2⟩ := uoF_ok r h.2.2
    refine ⟨.cond c' l' r', by simp only [uoF, e0, e1, e2, Option.bind_eq_bind, Option.bind_some], fun hr => ?_⟩
    simp only [RegF] at hr
    simp only [OkF]
    exact ⟨o0 hr.1, o1 hr.2.1, o2 hr.2.2⟩
  | .and _ _, h => by simp only [WtF] at h
  | .or _ _, h => by simp only [WtF] at h
  | .xor _ _, h => by simp only [WtF] at h
  | .leftShift _ _, h => by simp only [WtF] at h
  | .rightShift _ _, h => by simp only [WtF] at h
theorem uoFs_ok : ∀ (es : List (FExpr (ZMod p))), WtFs Γ es →
    ∃ es', uoFs ids es = some es' ∧ es'.length = es.length ∧ (RegFs es' → OkFs K es')
  | [], _ => ⟨[], rfl, rfl, fun _ => trivial⟩
  | e :: es, h => by
    simp only [WtFs] at h
    obtain ⟨l', e1, o1⟩ := uoF_ok e h.1
    obtain ⟨r', e2, g, o2⟩ := uoFs_ok es h.2
    refine ⟨l' :: r', by simp only [uoFs, e1, e2, Option.bind_eq_bind, Option.bind_some], by simp [g], fun hr => ?_⟩
    simp only [RegFs] at hr
    simp only [OkFs]
    exact ⟨o1 hr.1, o2 hr.2⟩
theorem uoB_ok : ∀ (e : BExpr (ZMod p)), WtB Γ e → ∃ e', uoB ids e = some e' ∧ (RegB e' → OkB K e')
  | .value n, _ => ⟨_, rfl, fun _ => by simp only [OkB]⟩
  | .ident x, h => ⟨_, rfl, fun _ => by simp only [OkB]; simp only [WtB] at h; exact hI.bool h⟩
  | .select es i, h => by
    simp only [WtB] at h
    obtain ⟨h1, h2, h3, h4⟩ := h
    obtain ⟨es', e1, l1, o1⟩ := uoBs_ok es h1
    obtain ⟨i', e2, f2⟩ := uoU_ok i h3
    obtain ⟨i'', e3, f3⟩ := f2.reduce
    refine ⟨.select es' i'', by simp only [uoB, e1, e2, e3, Option.bind_eq_bind, Option.bind_some], fun hr => ?_⟩
    simp only [RegB] at hr
    simp only [OkB]
    exact ⟨o1 hr.1, by omega, f3.ok hr.2, by rw [f3.width]; exact h4, f3.reduced rfl⟩
  | .fieldLt l r, h => by
    simp only [WtB] at h
    obtain ⟨l', e1, o1⟩ := uoF_ok l h.1
    obtain ⟨r', e2, o2⟩ := uoF_ok r h.2
    refine ⟨.fieldLt l' r', by simp only [uoB, e1, e2, Option.bind_eq_bind, Option.bind_some], fun hr => ?_⟩
    simp only [RegB] at hr
    simp only [OkB]
    exact ⟨o1 hr.1, o2 hr.2⟩
  | .fieldLe l r, h => by
    simp only [WtB] at h
    obtain ⟨l', e1, o1⟩ := uoF_ok l h.1
    obtain ⟨r', e2, o2⟩ := uoF_ok r h.2
    refine ⟨.fieldLe l' r', by simp only [uoB, e1, e2, Option.bind_eq_bind, Option.bind_some], fun hr => ?_⟩
    simp only [RegB] at hr
    simp only [OkB]
    exact ⟨o1 hr.1, o2 hr.2⟩
  | .fieldEq l r, h => by
    simp only [WtB] at h
    obtain ⟨l', e1, o1⟩ := uoF_ok l h.1
    obtain ⟨r', e2, o2⟩ := uoF_ok r h.2
    refine ⟨.fieldEq l' r', by simp only [uoB, e1, e2, Option.bind_eq_bind, Option.bind_some], fun hr => ?_⟩
    simp only [RegB] at hr
    simp only [OkB]
    exact ⟨o1 hr.1, o2 hr.2⟩
  | .uintLt l r, h => by
    simp only [WtB] at h
    obtain ⟨l', e1, f1⟩ := uoU_ok l h.1
    obtain ⟨r', e2, f2⟩ := uoU_ok r h.2.1
    obtain ⟨l'', e3, f3⟩ := f1.reduce
    obtain ⟨r'', e4, f4⟩ := f2.reduce
    refine ⟨.uintLt l'' r'', by simp only [uoB, e1, e2, e3, e4, Option.bind_eq_bind, Option.bind_some], fun hr => ?_⟩
    simp only [RegB] at hr
    simp only [OkB]
    exact ⟨f3.ok hr.1, f4.ok hr.2, by rw [f3.width, f4.width]; exact h.2.2, f3.reduced rfl, f4.reduced rfl⟩
  | .uintLe l r, h => by
    simp only [WtB] at h
    obtain ⟨l', e1, f1⟩ := uoU_ok l h.1
    obtain ⟨r', e2, f2⟩ := uoU_ok r h.2.1
    obtain ⟨l'', e3, f3⟩ := f1.reduce
    obtain ⟨r'', e4, f4⟩ := f2.reduce
    refine ⟨.uintLe l'' r'', by simp only [uoB, e1, e2, e3, e4, Option.bind_eq_bind, Option.bind_some], fun hr => ?_⟩
    simp only [RegB] at hr
    simp only [OkB]
    exact ⟨f3.ok hr.1, f4.ok hr.2, by rw [f3.width, f4.width]; exact h.2.2, f3.reduced rfl, f4.reduced rfl⟩
  | .uintEq l r, h => by
    simp only [WtB] at h
    obtain ⟨l', e1, f1⟩ := uoU_ok l h.1
    obtain ⟨r', e2, f2⟩ := uoU_ok r h.2.1
    obtain ⟨l'', e3, f3⟩ := f1.reduce
    obtain ⟨r'', e4, f4⟩ := f2.reduce
    refine ⟨.uintEq l'' r'', by simp only [uoB, e1, e2, e3, e4, Option.bind_eq_bind, Option.bind_some], fun hr => ?_⟩
    simp only [RegB] at hr
    simp only [OkB]
    exact ⟨f3.ok hr.1, f4.ok hr.2, by rw [f3.width, f4.width]; exact h.2.2, f3.reduced rfl, f4.reduced rfl⟩
  | .boolEq l r, h => by
    simp only [WtB] at h
    obtain ⟨l', e1, o1⟩ := uoB_ok l h.1
    obtain ⟨r', e2, o2⟩ := uoB_ok r h.2
    refine ⟨.boolEq l' r', by simp only [uoB, e1, e2, Option.bind_eq_bind, Option.bind_some], fun hr => ?_⟩
    simp only [RegB] at hr
    simp only [OkB]
    exact ⟨o1 hr.1, o2 hr.2⟩
  | .or l r, h => by
    simp only [WtB] at h
    obtain ⟨l', e1, o1⟩ := uoB_ok l h.1
    obtain ⟨r', e2, o2⟩ := uoB_ok r h.2
    refine ⟨.or l' r', by simp only [uoB, e1, e2, Option.bind_eq_bind, Option.bind_some], fun hr => ?_⟩
    simp only [RegB] at hr
    simp only [OkB]
    exact ⟨o1 hr.1, o2 hr.2⟩
  | .and l r, h => by
    simp only [WtB] at h
    obtain ⟨l', e1, o1⟩ := uoB_ok l h.1
    obtain ⟨r', e2, o2⟩ := uoB_ok r h.2
    refine ⟨.and l' r', by simp only [uoB, e1, e2, Option.bind_eq_bind, Option.bind_some], fun hr => ?_⟩
    simp only [RegB] at hr
    simp only [OkB]
    exact ⟨o1 hr.1, o2 hr.2⟩
  | .not l, h => by
    simp only [WtB] at h
    obtain ⟨l', e1, o1⟩ := uoB_ok l h
    refine ⟨.not l', by simp only [uoB, e1, Option.bind_eq_bind, Option.bind_some], fun hr => ?_⟩
    simp only [RegB] at hr
    simp only [OkB]
    exact o1 hr
  | .cond c l r, h => by
    simp only [WtB] at h
    obtain ⟨c', e0, o0⟩ := uoB_ok c h.1
    obtain ⟨l', e1, o1⟩ := uoB_ok l h.2.1
    obtain ⟨r', e2, o2⟩ := uoB_ok r h.2.2
    refine ⟨.cond c' l' r', by simp only [uoB, e0, e1, e2, Option.bind_eq_bind, Option.bind_some], fun hr => ?_⟩
    simp only [RegB] at hr
    simp only [OkB]
    exact ⟨o0 hr.1, o1 hr.2.1, o2 hr.2.2⟩
theorem uoBs_ok : ∀ (es : List (BExpr (ZMod p))), WtBs Γ es →
    ∃ es', uoBs ids es = some es' ∧ es'.length = es.length ∧ (RegBs es' → OkBs K es')
  | [], _ => ⟨[], rfl, rfl, fun _ => trivial⟩
  | e :: es, h => by
    simp only [WtBs] at h
    obtain ⟨l', e1, o1⟩ := uoB_ok e h.1
    obtain ⟨r', e2, g, o2⟩ := uoBs_ok es h.2
    refine ⟨l' :: r', by simp only [uoBs, e1, e2, Option.bind_eq_bind, Option.bind_some], by simp [g], fun hr => ?_⟩
    simp only [RegBs] at hr
    simp only [OkBs]
    exact ⟨o1 hr.1, o2 hr.2⟩
theorem uoU_ok : ∀ (e : UExpr (ZMod p)), WtU Γ e → ∃ e', uoU ids e = some e' ∧ Folded K e e'
  | .mk w (some m) i, h => by simp [WtU] at h
  | .mk w none i, h => by
    simp only [WtU] at h
    obtain ⟨_, hw, hi⟩ := h
    obtain ⟨m, i', e1, g1, g2, g3⟩ := uoUI_ok w hw i hi
    have hlt : w < (requiredBits p - 1) / 2 := by have := hw.2; omega
    refine ⟨.mk w (some m) i', by simp only [uoU, hlt, if_true, e1, Option.bind_eq_bind, Option.bind_some], m, i', rfl,
      g1, g2, fun hr => ?_⟩
    simp only [RegU] at hr
    simp only [OkU]
    have hw2 := hw.2
    exact ⟨⟨m, rfl, g2⟩, hw.1, by omega, g3 hr.1 hr.2⟩
theorem uoUs_ok (w : ℕ) : ∀ (es : List (UExpr (ZMod p))), WtUs Γ w es →
    ∃ es', uoUs ids es = some es' ∧ es'.length = es.length ∧ FoldedL K w es'
  | [], _ => ⟨[], rfl, rfl, fun _ h => by simp at h⟩
  | e :: es, h => by
    simp only [WtUs] at h
    obtain ⟨l', e1, f1⟩ := uoU_ok e h.1.1
    obtain ⟨l'', e3, f3, _⟩ := f1.noReduce
    obtain ⟨r', e2, g, o2⟩ := uoUs_ok w es h.2
    refine ⟨l'' :: r', by simp only [uoUs, e1, e2, e3, Option.bind_eq_bind, Option.bind_some], by simp [g], fun e' he => ?_⟩
    rcases List.mem_cons.1 he with h5 | h5
    · rw [h5]
      obtain ⟨m, i, rfl, _, hb, _⟩ := f1
      have hmm := f3.info
      refine ⟨⟨m.max, hmm, f3.amax, hb⟩, by rw [f3.width]; exact h.1.2, by simpa using f3.emax, f3.ok⟩
    · exact o2 e' h5
theorem uoUI_ok (w : ℕ) (hw : WidthOk p w) : ∀ (i : UInner (ZMod p)), WtUI Γ w i →
    ∃ m i', uoUI ids w i = some (m, i') ∧ m.shouldReduce ≠ .yes ∧ m.max.val < 2 ^ (requiredBits p - 1) ∧
      (NodeRegular p w m.max.val i' → RegUI i' → OkUI K w m.max.val i')
  | .value n, h => by
    simp only [WtUI] at h
    have hr := hw.room'
    have hb := bound_lt_p hw
    have hv : ((n : ℕ) : ZMod p).val = n := val_natCast_of_lt (by omega)
    refine ⟨_, _, rfl, by simp [withMax], ?_, fun _ _ => ?_⟩
    · simp only [withMax, hv]; omega
    · simp only [OkUI, withMax, hv]; exact ⟨h, le_refl _⟩
  | .ident x, h => by
    simp only [WtUI] at h
    obtain ⟨m, h1, h2, h3⟩ := hI.uint h
    refine ⟨⟨m, .no⟩, .ident x, by simp only [uoUI, h1, Option.bind_eq_bind, Option.bind_some], by simp, h2, fun _ _ => ?_⟩
    simp only [OkUI]
    exact ⟨m.val, h3, le_refl _⟩
  | .select es i, h => by
    simp only [WtUI] at h
    obtain ⟨h1, h0, h2, h3, h4⟩ := h
    obtain ⟨es', e1, l1, o1⟩ := uoUs_ok w es h1
    obtain ⟨i', e2, f2⟩ := uoU_ok i h3
    obtain ⟨i'', e3, f3⟩ := f2.reduce
    have hne : es' ≠ [] := by
      intro h
      rw [h] at l1
      exact h0 (List.length_eq_zero_iff.1 l1.symm)
    obtain ⟨n, e4, b4, m4⟩ := maxOfAll_ok hne (fun e he => (o1 e he).1)
    have hb := bound_lt_p hw
    have e5 : tryFromBiguint p n = some (n : ZMod p) := by rw [tryFromBiguint_eq, if_pos (by omega)]
    have hv : ((n : ℕ) : ZMod p).val = n := val_natCast_of_lt (by omega)
    refine ⟨withMax (n : ZMod p), .select es' i'',
      by simp only [uoUI, e1, e2, e3, e4, e5, Option.bind_eq_bind, Option.bind_some], by simp [withMax],
      by simp only [withMax, hv]; exact b4, fun _ hr => ?_⟩
    simp only [RegUI] at hr
    simp only [OkUI, withMax, hv]
    exact ⟨okUs_of o1 m4 hr.1, by omega, f3.ok hr.2, by rw [f3.width]; exact h4, f3.reduced rfl⟩
  | .add l r, h => by
    simp only [WtUI] at h
    obtain ⟨l', e1, f1⟩ := uoU_ok l h.1
    obtain ⟨r', e2, f2⟩ := uoU_ok r h.2.1
    obtain ⟨lm, e3, a3, b3⟩ := f1.maxOf
    obtain ⟨rm, e4, a4, b4⟩ := f2.maxOf
    obtain ⟨bl, br, m, e5, b5, c5⟩ := chooseAdd_ok hw b3 b4
    obtain ⟨l'', e6, f6⟩ := f1.forceIf bl
    obtain ⟨r'', e7, f7⟩ := f2.forceIf br
    refine ⟨withMax m, .add l'' r'',
      by simp only [uoUI, e1, e2, e3, e4, e5, e6, e7, Option.bind_eq_bind, Option.bind_some], by simp [withMax], b5,
      fun _ hr => ?_⟩
    simp only [RegUI] at hr
    simp only [OkUI]
    refine ⟨f6.ok hr.1, f7.ok hr.2, by rw [f6.width]; exact h.2.2.1, by rw [f7.width]; exact h.2.2.2, ?_⟩
    refine le_trans (Nat.add_le_add f6.emax f7.emax) ?_
    rw [f6.amax, f7.amax, a3, a4, h.2.2.1, h.2.2.2]
    exact c5
  | .mult l r, h => by
    simp only [WtUI] at h
    obtain ⟨l', e1, f1⟩ := uoU_ok l h.1
    obtain ⟨r', e2, f2⟩ := uoU_ok r h.2.1
    obtain ⟨lm, e3, a3, b3⟩ := f1.maxOf
    obtain ⟨rm, e4, a4, b4⟩ := f2.maxOf
    obtain ⟨bl, br, m, e5, b5, c5⟩ := chooseMul_ok hw b3 b4
    obtain ⟨l'', e6, f6⟩ := f1.forceIf bl
    obtain ⟨r'', e7, f7⟩ := f2.forceIf br
    refine ⟨withMax m, .mult l'' r'',
      by simp only [uoUI, e1, e2, e3, e4, e5, e6, e7, Option.bind_eq_bind, Option.bind_some], by simp [withMax], b5,
      fun _ hr => ?_⟩
    simp only [RegUI] at hr
    simp only [OkUI]
    refine ⟨f6.ok hr.1, f7.ok hr.2, by rw [f6.width]; exact h.2.2.1, by rw [f7.width]; exact h.2.2.2, ?_⟩
    refine le_trans (Nat.mul_le_mul f6.emax f7.emax) ?_
    rw [f6.amax, f7.amax, a3, a4, h.2.2.1, h.2.2.2]
    exact c5
  | .sub l r, h => by
    simp only [WtUI] at h
    obtain ⟨l', e1, f1⟩ := uoU_ok l h.1
    obtain ⟨r', e2, f2⟩ := uoU_ok r h.2.1
    obtain ⟨lm, e3, a3, b3⟩ := f1.maxOf
    obtain ⟨rm, e4, a4, b4⟩ := f2.maxOf
    obtain ⟨bl, br, m, e5, b5, c5⟩ := chooseSub_ok hw b3 b4
    obtain ⟨l'', e6, f6⟩ := f1.forceIf bl
    obtain ⟨r'', e7, f7⟩ := f2.forceIf br
    refine ⟨withMax m, .sub l'' r'',
      by simp only [uoUI, e1, e2, e3, e4, e5, e6, e7, Option.bind_eq_bind, Option.bind_some], by simp [withMax], b5,
      fun hn hr => ?_⟩
    simp only [RegUI] at hr
    simp only [NodeRegular] at hn
    simp only [OkUI]
    refine ⟨f6.ok hr.1, f7.ok hr.2, by rw [f6.width]; exact h.2.2.1, by rw [f7.width]; exact h.2.2.2, ?_⟩
    rw [f7.amax, a4] at hn
    have hi : (r''.info.map UMeta.max).getD 0 = rm := by
      rw [f7.info]
      have : r'.info.map UMeta.max = some rm := e4
      rw [this]; rfl
    rw [hi]
    refine le_trans (Nat.add_le_add_right f6.emax _) ?_
    rw [f6.amax, a3, h.2.2.1]
    exact (c5 hn).2
  | .div l r, h => by
    simp only [WtUI] at h
    obtain ⟨l', e1, f1⟩ := uoU_ok l h.1
    obtain ⟨r', e2, f2⟩ := uoU_ok r h.2.1
    obtain ⟨l'', e6, f6⟩ := f1.reduce
    obtain ⟨r'', e7, f7⟩ := f2.reduce
    have hg := val_rangeMax hw
    have hr := hw.room'
    refine ⟨withMax (rangeMax p w), .div l'' r'',
      by simp only [uoUI, e1, e2, e6, e7, Option.bind_eq_bind, Option.bind_some], by simp [withMax],
      by simp only [withMax, hg]; omega, fun _ hr => ?_⟩
    simp only [RegUI] at hr
    simp only [OkUI, withMax, hg]
    exact ⟨f6.ok hr.1, f7.ok hr.2, by rw [f6.width]; exact h.2.2.1, by rw [f7.width]; exact h.2.2.2, f6.reduced rfl,
      f7.reduced rfl, le_refl _⟩
  | .rem l r, h => by
    simp only [WtUI] at h
    obtain ⟨l', e1, f1⟩ := uoU_ok l h.1
    obtain ⟨r', e2, f2⟩ := uoU_ok r h.2.1
    obtain ⟨l'', e6, f6⟩ := f1.reduce
    obtain ⟨r'', e7, f7⟩ := f2.reduce
    have hg := val_rangeMax hw
    have hr := hw.room'
    refine ⟨withMax (rangeMax p w), .rem l'' r'',
      by simp only [uoUI, e1, e2, e6, e7, Option.bind_eq_bind, Option.bind_some], by simp [withMax],
      by simp only [withMax, hg]; omega, fun _ hr => ?_⟩
    simp only [RegUI] at hr
    simp only [OkUI, withMax, hg]
    exact ⟨f6.ok hr.1, f7.ok hr.2, by rw [f6.width]; exact h.2.2.1, by rw [f7.width]; exact h.2.2.2, f6.reduced rfl,
      f7.reduced rfl, le_refl _⟩
  | .xor l r, h => by
    simp only [WtUI] at h
    obtain ⟨l', e1, f1⟩ := uoU_ok l h.1
    obtain ⟨r', e2, f2⟩ := uoU_ok r h.2.1
    obtain ⟨l'', e6, f6⟩ := f1.reduce
    obtain ⟨r'', e7, f7⟩ := f2.reduce
    have hg := val_rangeMax hw
    have hr := hw.room'
    refine ⟨withMax (rangeMax p w), .xor l'' r'',
      by simp only [uoUI, e1, e2, e6, e7, Option.bind_eq_bind, Option.bind_some], by simp [withMax],
      by simp only [withMax, hg]; omega, fun _ hr => ?_⟩
    simp only [RegUI] at hr
    simp only [OkUI, withMax, hg]
    exact ⟨f6.ok hr.1, f7.ok hr.2, by rw [f6.width]; exact h.2.2.1, by rw [f7.width]; exact h.2.2.2, f6.reduced rfl,
      f7.reduced rfl, le_refl _⟩
  | .and l r, h => by
    simp only [WtUI] at h
    obtain ⟨l', e1, f1⟩ := uoU_ok l h.1
    obtain ⟨r', e2, f2⟩ := uoU_ok r h.2.1
    obtain ⟨l'', e6, f6⟩ := f1.reduce
    obtain ⟨r'', e7, f7⟩ := f2.reduce
    have hg := val_rangeMax hw
    have hr := hw.room'
    refine ⟨withMax (rangeMax p w), .and l'' r'',
      by simp only [uoUI, e1, e2, e6, e7, Option.bind_eq_bind, Option.bind_some], by simp [withMax],
      by simp only [withMax, hg]; omega, fun _ hr => ?_⟩
    simp only [RegUI] at hr
    simp only [OkUI, withMax, hg]
    exact ⟨f6.ok hr.1, f7.ok hr.2, by rw [f6.width]; exact h.2.2.1, by rw [f7.width]; exact h.2.2.2, f6.reduced rfl,
      f7.reduced rfl, le_refl _⟩
  | .or l r, h => by
    simp only [WtUI] at h
    obtain ⟨l', e1, f1⟩ := uoU_ok l h.1
    obtain ⟨r', e2, f2⟩ := uoU_ok r h.2.1
    obtain ⟨l'', e6, f6⟩ := f1.reduce
    obtain ⟨r'', e7, f7⟩ := f2.reduce
    have hg := val_rangeMax hw
    have hr := hw.room'
    refine ⟨withMax (rangeMax p w), .or l'' r'',
      by simp only [uoUI, e1, e2, e6, e7, Option.bind_eq_bind, Option.bind_some], by simp [withMax],
      by simp only [withMax, hg]; omega, fun _ hr => ?_⟩
    simp only [RegUI] at hr
    simp only [OkUI, withMax, hg]
    exact ⟨f6.ok hr.1, f7.ok hr.2, by rw [f6.width]; exact h.2.2.1, by rw [f7.width]; exact h.2.2.2, f6.reduced rfl,
      f7.reduced rfl, le_refl _⟩
  | .leftShift l r, h => by
    simp only [WtUI] at h
    obtain ⟨l', e1, f1⟩ := uoU_ok l h.1
    obtain ⟨n, m, hn, e3, e2⟩ := literal_fold (ids := ids) h.2.2
    obtain ⟨lm, e4, a4, b4⟩ := f1.maxOf
    obtain ⟨l'', e6, f6⟩ := f1.reduce
    have hb := bound_lt_p hw
    have hr := hw.room'
    have hlt := leftShiftMax_lt (k := n) hw lm
    have e5 : tryFromBiguint p (leftShiftMax w n lm) = some ((leftShiftMax w n lm : ℕ) : ZMod p) := by
      rw [tryFromBiguint_eq, if_pos (by omega)]
    have hv : ((leftShiftMax w n lm : ℕ) : ZMod p).val = leftShiftMax w n lm := val_natCast_of_lt (by omega)
    refine ⟨withMax ((leftShiftMax w n lm : ℕ) : ZMod p), .leftShift l'' (.mk 32 none (.value n)),
      by simp only [uoUI, e1, e2, e4, e5, e6, literal?, Option.bind_eq_bind, Option.bind_some], by simp [withMax],
      by simp only [withMax, hv]; omega, fun hn' hr => ?_⟩
    simp only [RegUI] at hr
    simp only [NodeRegular] at hn'
    simp only [OkUI]
    refine ⟨f6.ok hr.1, by rw [f6.width]; exact h.2.1, f6.reduced rfl, 32, none, n, rfl, hn, ?_⟩
    exact hn' n ⟨32, none, rfl⟩
  | .rightShift l r, h => by
    simp only [WtUI] at h
    obtain ⟨l', e1, f1⟩ := uoU_ok l h.1
    obtain ⟨n, m, hn, e3, e2⟩ := literal_fold (ids := ids) h.2.2
    obtain ⟨lm, e4, a4, b4⟩ := f1.maxOf
    obtain ⟨l'', e6, f6⟩ := f1.reduce
    have hb := bound_lt_p hw
    have hr := hw.room'
    have hlt := rightShiftMax_lt (k := n) hw lm
    have e5 : tryFromBiguint p (rightShiftMax w n lm) = some ((rightShiftMax w n lm : ℕ) : ZMod p) := by
      rw [tryFromBiguint_eq, if_pos (by omega)]
    have hv : ((rightShiftMax w n lm : ℕ) : ZMod p).val = rightShiftMax w n lm := val_natCast_of_lt (by omega)
    refine ⟨withMax ((rightShiftMax w n lm : ℕ) : ZMod p), .rightShift l'' (.mk 32 none (.value n)),
      by simp only [uoUI, e1, e2, e4, e5, e6, literal?, Option.bind_eq_bind, Option.bind_some], by simp [withMax],
      by simp only [withMax, hv]; omega, fun hn' hr => ?_⟩
    simp only [RegUI] at hr
    simp only [NodeRegular] at hn'
    simp only [OkUI]
    refine ⟨f6.ok hr.1, by rw [f6.width]; exact h.2.1, f6.reduced rfl, 32, none, n, rfl, hn, ?_⟩
    exact hn' n ⟨32, none, rfl⟩
  | .not l, h => by
    simp only [WtUI] at h
    obtain ⟨l', e1, f1⟩ := uoU_ok l h.1
    obtain ⟨l'', e6, f6⟩ := f1.reduce
    have hg := val_rangeMax hw
    have hr := hw.room'
    refine ⟨withMax (rangeMax p w), .not l'',
      by simp only [uoUI, e1, e6, Option.bind_eq_bind, Option.bind_some], by simp [withMax],
      by simp only [withMax, hg]; omega, fun _ hr => ?_⟩
    simp only [RegUI] at hr
    simp only [OkUI, withMax, hg]
    exact ⟨f6.ok hr, by rw [f6.width]; exact h.2, f6.reduced rfl, le_refl _⟩
  | .cond c l r, h => by
    simp only [WtUI] at h
    obtain ⟨c', e0, o0⟩ := uoB_ok c h.1
    obtain ⟨l', e1, f1⟩ := uoU_ok l h.2.1
    obtain ⟨r', e2, f2⟩ := uoU_ok r h.2.2.1
    obtain ⟨lm, e3, a3, b3⟩ := f1.maxOf
    obtain ⟨rm, e4, a4, b4⟩ := f2.maxOf
    obtain ⟨l'', e6, f6, _⟩ := f1.noReduce
    obtain ⟨r'', e7, f7, _⟩ := f2.noReduce
    have hb := bound_lt_p hw
    have e5 : tryFromBiguint p (max lm.val rm.val) = some ((max lm.val rm.val : ℕ) : ZMod p) := by
      rw [tryFromBiguint_eq, if_pos (by omega)]
    have hv : ((max lm.val rm.val : ℕ) : ZMod p).val = max lm.val rm.val := val_natCast_of_lt (by omega)
    refine ⟨withMax ((max lm.val rm.val : ℕ) : ZMod p), .cond c' l'' r'',
      by simp only [uoUI, e0, e1, e2, e3, e4, e5, e6, e7, Option.bind_eq_bind, Option.bind_some], by simp [withMax],
      by simp only [withMax, hv]; omega, fun _ hr => ?_⟩
    simp only [RegUI] at hr
    simp only [OkUI, withMax, hv]
    have g6 := f6.emax
    have g7 := f7.emax
    rw [f6.amax, a3] at g6
    rw [f7.amax, a4] at g7
    simp only [Bool.false_eq_true, if_false] at g6 g7
    exact ⟨o0 hr.1, f6.ok hr.2.1, f7.ok hr.2.2, by rw [f6.width]; exact h.2.2.2.1, by rw [f7.width]; exact h.2.2.2.2,
      by omega, by omega⟩
end

end
end Zok.Uo
